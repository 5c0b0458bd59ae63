import Verif.Spec.Extend
import Verif.Lemmas.Val
import Verif.Lemmas.Alike
import Verif.Lemmas.Read
import Verif.Lemmas.Construct
import Verif.Lemmas.Canonical
import Verif.Props.Registry

/-!
# Lemmas about extended libraries
-/

set_option linter.unusedSectionVars false
set_option linter.unusedSimpArgs false

namespace Verif

open Spec

variable {C F : Type} [DecidableEq C] [PyExt F]

/-! ## The items of a class -/

theorem dget_register (r : Registry C) (c : C) (it : Item C) (d : C) :
    (dget d (r.register c it)).getD [] = (dget d r).getD [] ++ if c = d then [it] else [] := by
  unfold Registry.register
  rw [dget_dset]
  by_cases h : c = d
  · subst h; simp
  · simp [h]

theorem itemsOf_register_other (L : Lib C) (c : C) (it : Item C) {d : C} (h : ¬ Inherits L d c) :
    (L.register c it).itemsOf d = L.itemsOf d := by
  simp only [Lib.itemsOf, Lib.register, get_flatMap]
  rw [List.flatMap_def, List.flatMap_def]
  congr 1
  refine List.map_congr_left fun a ha => ?_
  rw [dget_register, if_neg (fun e => h (by rw [e]; exact List.mem_reverse.mp ha))]
  simp

/-- The items after the registration are those before it and the new one. -/
theorem itemsOf_register_filter (L : Lib C) (c : C) (it : Item C) {d : C}
    (h : ∀ i ∈ L.itemsOf d, i.attr ≠ it.attr) :
    ((L.register c it).itemsOf d).filter (fun i => decide (i.attr ≠ it.attr)) = L.itemsOf d := by
  simp only [Lib.itemsOf, Lib.register, get_flatMap] at h ⊢
  generalize (L.info d).mro.reverse = l at h ⊢
  induction l with
  | nil => rfl
  | cons a l ih =>
    simp only [List.flatMap_cons, List.mem_append] at h
    simp only [List.flatMap_cons, List.filter_append, ih (fun i hi => h i (.inr hi))]
    congr 1
    rw [dget_register, List.filter_append, List.filter_eq_self.mpr]
    · split <;> simp
    · intro i hi; simpa using h i (.inl hi)

theorem mem_itemsOf_register {L : Lib C} {c : C} {it i : Item C} {d : C} :
    i ∈ (L.register c it).itemsOf d ↔ i ∈ L.itemsOf d ∨ (i = it ∧ Inherits L d c) := by
  simp only [Lib.itemsOf, Lib.register, get_flatMap, List.mem_flatMap, List.mem_reverse, Inherits]
  constructor
  · rintro ⟨a, ha, hi⟩
    rw [dget_register, List.mem_append] at hi
    rcases hi with hi | hi
    · exact .inl ⟨a, ha, hi⟩
    · split at hi
      · rename_i hca; subst hca; exact .inr ⟨by simpa using hi, ha⟩
      · simp at hi
  · rintro (⟨a, ha, hi⟩ | ⟨rfl, hd⟩)
    · exact ⟨a, ha, by rw [dget_register, List.mem_append]; exact .inl hi⟩
    · exact ⟨c, hd, by rw [dget_register, List.mem_append]; simp⟩

theorem register_info (L : Lib C) (c : C) (it : Item C) : (L.register c it).info = L.info := rfl

/-! ## Changing objects -/

section
variable (f : C → List (Str × Val C F) → List (Str × Val C F))

theorem mapObjectsAttrs_eq (attrs : List (Str × Val C F)) :
    mapObjectsAttrs f attrs = attrs.map fun p => (p.1, mapObjects f p.2) := by
  induction attrs with
  | nil => simp only [mapObjectsAttrs, List.map_nil]
  | cons p r ih => obtain ⟨a, v⟩ := p; simp only [mapObjectsAttrs, ih, List.map_cons]

theorem mapObjectsList_eq (l : List (Val C F)) : mapObjectsList f l = l.map (mapObjects f) := by
  induction l with
  | nil => simp only [mapObjectsList, List.map_nil]
  | cons v r ih => simp only [mapObjectsList, ih, List.map_cons]

theorem mapObjects_obj (c : C) (ns : Str) (nss : NsMap) (attrs : List (Str × Val C F)) :
    mapObjects f (.obj c ns nss attrs) = .obj c ns nss (f c (attrs.map fun p => (p.1, mapObjects f p.2))) := by
  simp only [mapObjects, mapObjectsAttrs_eq]

theorem mapObjects_list (l : List (Val C F)) : mapObjects f (.list l) = .list (l.map (mapObjects f)) := by
  simp only [mapObjects, mapObjectsList_eq]

theorem attrOf_mapObjects (a : Str) (attrs : List (Str × Val C F)) :
    attrOf a (attrs.map fun p => (p.1, mapObjects f p.2)) = mapObjects f (attrOf a attrs) := by
  unfold attrOf
  rw [dget_map_kv (mapObjects f)]
  cases dget a attrs with
  | none => simp only [Option.map_none, Option.getD_none, mapObjects]
  | some v => rfl

theorem notNone_mapObjects (v : Val C F) : (mapObjects f v).notNone = v.notNone := by
  cases v <;> simp only [mapObjects, Val.notNone]

theorem numOf_mapObjects (v : Val C F) : numOf (mapObjects f v) = numOf v := by
  cases v <;> simp only [mapObjects, numOf]

theorem coordsOf_attrOf (c : C) (ns : Str) (nss : NsMap) (attrs : List (Str × Val C F)) :
    coordsOf (.obj c ns nss attrs) = match attrOf (s% "coords") attrs with
      | .coords l => .ok l
      | _ => .error .illTyped := by
  simp only [coordsOf, attrOf]
  cases dget (s% "coords") attrs with
  | none => rfl
  | some v => cases v <;> rfl

/-- The change respects the attributes that `__bool__` and `geometry` look at. -/
structure Respects (L L' : Lib C) : Prop where
  bool : ∀ d, (L'.info d).bool = (L.info d).bool
  geom : ∀ d, (L'.info d).geom = (L.info d).geom
  keep : ∀ d a (l : List (Str × Val C F)), a ∈ Spec.builtin ∨ a ∈ boolAttrs (L.info d).bool →
    attrOf a (f d l) = attrOf a l

theorem coordsOf_mapObjects {L L' : Lib C} (h : Respects f L L') (v : Val C F) :
    coordsOf (mapObjects f v) = coordsOf v := by
  cases v <;> simp only [mapObjects, coordsOf]
  rename_i c ns nss attrs
  have e1 := coordsOf_attrOf c ns nss (f c (attrs.map fun p => (p.1, mapObjects f p.2)))
  have e2 := coordsOf_attrOf c ns nss attrs
  simp only [coordsOf] at e1 e2
  rw [mapObjectsAttrs_eq, e1, e2, h.keep c _ _ (.inl (by decide)), attrOf_mapObjects]
  cases attrOf (s% "coords") attrs <;> simp only [mapObjects]

end

theorem geomStep_on {k : GeomKind} {A B : List (Str × View C F)}
    (h : ∀ a ∈ Spec.builtin, AlikeView (viewOf a A) (viewOf a B)) : geomStep k A = geomStep k B := by
  have h1 := h (s% "kml_coordinates") (by decide)
  have h2 := h (s% "kml_geometry") (by decide)
  have h3 := h (s% "outer_boundary") (by decide)
  have h4 := h (s% "inner_boundaries") (by decide)
  have h5 := h (s% "kml_geometries") (by decide)
  have h6 := h (s% "track_items") (by decide)
  have h7 := h (s% "tracks") (by decide)
  have h8 := h (s% "longitude") (by decide)
  have h9 := h (s% "latitude") (by decide)
  have h10 := h (s% "altitude") (by decide)
  have h11 := h (s% "location") (by decide)
  cases k <;> simp only [geomStep, h1.info, h1.coords, h2.info, h2.notNone, h3.info, h4.elems, h5.elems, h7.elems,
    h8.num, h9.num, h10.num, h11.info]
  have hi := h6.items
  cases hv : (viewOf (s% "track_items") A).v <;> cases hw : (viewOf (s% "track_items") B).v <;>
    first
    | rfl
    | (rw [hv, hw] at hi; have := (hi _).mp rfl; simp only [Val.items.injEq] at this; rw [this])
    | (rw [hv, hw] at hi; exact absurd ((hi _).mp rfl) (by simp))
    | (rw [hv, hw] at hi; exact absurd ((hi _).mpr rfl) (by simp))

theorem boolStep_on {r : BoolRule} {A B : List (Str × View C F)} {g : Except Err (Option (Geo F))}
    (h : ∀ a ∈ boolAttrs r, AlikeView (viewOf a A) (viewOf a B)) : boolStep r A g = boolStep r B g := by
  cases r <;> simp only [boolStep]
  case allTruthy l => rw [List.map_congr_left fun a ha => by rw [(h a ha).info]]
  case anyTruthy l => rw [List.map_congr_left fun a ha => by rw [(h a ha).info]]
  case allNotNone l =>
    congr 1
    rw [Bool.eq_iff_iff, List.all_eq_true, List.all_eq_true]
    exact ⟨fun H a ha => (h a ha).notNone ▸ H a ha, fun H a ha => (h a ha).notNone ▸ H a ha⟩
  case anyNotNone l =>
    congr 1
    rw [Bool.eq_iff_iff, List.any_eq_true, List.any_eq_true]
    exact ⟨fun ⟨a, ha, H⟩ => ⟨a, ha, (h a ha).notNone ▸ H⟩, fun ⟨a, ha, H⟩ => ⟨a, ha, (h a ha).notNone ▸ H⟩⟩
  case anyElem a => rw [(h a (by simp [boolAttrs])).elems]

section
variable {f : C → List (Str × Val C F) → List (Str × Val C F)} {L L' : Lib C}

theorem info_mapObjects (hf : Respects f L L') (v : Val C F) : info L' (mapObjects f v) = info L v := by
  induction v using Val.objInd with
  | hother v hv =>
    cases v <;> first | exact absurd rfl (hv _ _ _ _) |
      simp only [mapObjects, info, mapObjectsList_eq, List.isEmpty_map]
  | hobj c ns nss attrs ih1 ih2 =>
    rw [mapObjects_obj]
    have hsame : ∀ a, a ∈ Spec.builtin ∨ a ∈ boolAttrs (L.info c).bool →
        AlikeView (viewOf a (infoAttrs L' (f c (attrs.map fun p => (p.1, mapObjects f p.2)))))
        (viewOf a (infoAttrs L attrs)) := by
      intro a ha
      rw [viewOf_infoAttrs, viewOf_infoAttrs, hf.keep c a _ ha, attrOf_mapObjects]
      by_cases hnone : attrOf a attrs = .none
      · rw [hnone]
        simp only [mapObjects]
        exact ⟨by simp only [info], by simp only [infoElems], rfl, rfl, rfl, fun l => Iff.rfl⟩
      · have hm := attrOf_mem (rfl : attrOf a attrs = attrOf a attrs) hnone
        refine ⟨ih1 a _ hm, ?_, notNone_mapObjects f _, coordsOf_mapObjects f hf _, numOf_mapObjects f _, ?_⟩
        · cases hv : attrOf a attrs <;> simp only [mapObjects, infoElems]
          rename_i l
          rw [hv] at hm
          rw [mapObjectsList_eq, infoList_eq, infoList_eq, List.map_map]
          apply List.map_congr_left
          intro w hw
          exact ih2 a l hm w hw
        · intro l
          cases hv : attrOf a attrs <;> simp only [mapObjects, reduceCtorEq]
    simp only [info, infoStep, hf.bool, hf.geom]
    rw [geomStep_on fun a ha => hsame a (.inl ha), boolStep_on fun a ha => hsame a (.inr ha)]

theorem truthy_mapObjects (hf : Respects f L L') (v : Val C F) : truthy L' (mapObjects f v) = truthy L v := by
  rw [truthy, info_mapObjects hf, truthy]

/-! ## Constructors -/

theorem keepTruthy_mapObjects (hf : Respects f L L') (l : List (Val C F)) :
    keepTruthy L' (l.map (mapObjects f)) = (keepTruthy L l).map (fun l => l.map (mapObjects f)) := by
  induction l with
  | nil => rfl
  | cons v l ih =>
    simp only [List.map_cons, keepTruthy, truthy_mapObjects hf, ih]
    cases truthy L v with
    | error e => rfl
    | ok b =>
      cases keepTruthy L l with
      | error e => rfl
      | ok r => cases b <;> rfl

theorem normalise_mapObjects (hf : Respects f L L') (n : Norm) (v : Val C F) :
    normalise L' n (mapObjects f v) = (normalise L n v).map (mapObjects f) := by
  cases n
  case orNone =>
    simp only [normalise, truthy_mapObjects hf]
    cases truthy L v with
    | error e => rfl
    | ok b => cases b <;> simp only [Except.map, Bool.false_eq_true, if_false, if_true, mapObjects]
  case listTruthy =>
    cases v <;> simp only [normalise, mapObjects, mapObjectsList_eq, Except.map, List.map_nil]
    rename_i l
    rw [keepTruthy_mapObjects hf]
    cases keepTruthy L l with
    | error e => rfl
    | ok r => simp only [Except.map, mapObjects, mapObjectsList_eq]
  case clean =>
    cases v <;> simp only [normalise, mapObjects, Except.map]
    rename_i s
    cases cleanString (some s) <;> simp only [mapObjects]
  all_goals cases v <;> simp only [normalise, mapObjects, mapObjectsList_eq, Except.map, List.map_nil]

/-- Keyword arguments with changed objects. -/
def mapKw (f : C → List (Str × Val C F) → List (Str × Val C F)) (kw : List (Str × Val C F)) : List (Str × Val C F) :=
  kw.map fun p => (p.1, mapObjects f p.2)

theorem kwGet_mapKw (a : Str) (kw : List (Str × Val C F)) : kwGet a (mapKw f kw) = mapObjects f (kwGet a kw) :=
  attrOf_mapObjects f a kw

theorem kwGet_filter {q : Str → Bool} {a : Str} (h : q a = true) (kw : List (Str × Val C F)) :
    kwGet a (kw.filter fun p => q p.1) = kwGet a kw := by
  unfold kwGet
  congr 1
  induction kw with
  | nil => rfl
  | cons p kw ih =>
    obtain ⟨b, v⟩ := p
    simp only [List.filter_cons]
    by_cases hb : b = a
    · subst hb; simp [h, dget]
    · by_cases hq : q b = true
      · simp [hq, dget, hb, ih]
      · simp [hq, dget, hb, ih]

/-- Two sets of keyword arguments with the same relevant arguments, up to changed objects. -/
def SameKw (f : C → List (Str × Val C F) → List (Str × Val C F)) (names : List Str) (kw kw' : List (Str × Val C F)) : Prop :=
  ∀ a ∈ names, kwGet a kw' = mapObjects f (kwGet a kw)

theorem fillSlots_mapObjects (hf : Respects f L L') {kw kw' : List (Str × Val C F)} {l : List (Str × Norm)}
    (h : SameKw f (l.map Prod.fst) kw kw') :
    fillSlots L' kw' l = (fillSlots L kw l).map (mapKw f) := by
  induction l with
  | nil => rfl
  | cons p l ih =>
    obtain ⟨a, n⟩ := p
    have ih := ih fun b hb => h b (by simp only [List.map_cons, List.mem_cons]; exact .inr hb)
    simp only [fillSlots, h a (by simp), normalise_mapObjects hf, ih]
    cases normalise L n (kwGet a kw) with
    | error e => rfl
    | ok w =>
      cases fillSlots L kw l with
      | error e => rfl
      | ok r => rfl

theorem trackItems_mapObjects {kw kw' : List (Str × Val C F)}
    (h : SameKw f [s% "track_items", s% "whens", s% "coords", s% "angles"] kw kw') : trackItems kw' = trackItems kw := by
  simp only [trackItems, h (s% "track_items") (by simp), h (s% "whens") (by simp), h (s% "coords") (by simp),
    h (s% "angles") (by simp)]
  generalize kwGet (s% "track_items") kw = a
  generalize kwGet (s% "whens") kw = b
  generalize kwGet (s% "coords") kw = c
  generalize kwGet (s% "angles") kw = d
  cases a <;> simp only [mapObjects] <;> cases b <;> simp only [mapObjects] <;> cases c <;> simp only [mapObjects] <;>
    cases d <;> simp only [mapObjects]

theorem specialInit_mapObjects (hf : Respects f L L') (s : Special) {kw kw' : List (Str × Val C F)}
    (h : SameKw f Spec.builtin kw kw') :
    specialInit L' s kw' = (specialInit L s kw).map (mapKw f) := by
  cases s
  case schema =>
    simp only [specialInit, h (s% "id") (by decide)]
    cases kwGet (s% "id") kw <;> simp only [mapObjects, Except.map]
    rename_i t
    cases t.isEmpty <;> rfl
  case track =>
    have ht : trackItems kw' = trackItems kw := trackItems_mapObjects fun a ha => h a (by
      simp only [List.mem_cons, List.not_mem_nil, or_false] at ha
      rcases ha with rfl | rfl | rfl | rfl <;> decide)
    simp only [specialInit, ht]
    cases trackItems kw with
    | error e => rfl
    | ok l => simp only [Except.map, mapKw, List.map_cons, List.map_nil, mapObjects]
  case placemark =>
    simp only [specialInit, h (s% "kml_geometry") (by decide), truthy_mapObjects hf]
    cases truthy L (kwGet (s% "kml_geometry") kw) <;> rfl
  all_goals rfl

end

/-! ## Reading -/

/-- The second computation follows the first: if the first succeeds so does the second, with
the result changed by `g`; if the first raises, so does the second, provided `Q`. -/
def Follows {α β : Type} (Q : Prop) (g : α → β) (r : Except Err α) (r' : Except Err β) : Prop :=
  (∀ v, r = .ok v → r' = .ok (g v)) ∧ (Q → ∀ x, r = .error x → r' = .error x)

theorem Follows.of_eq {α β : Type} {Q : Prop} {g : α → β} {r : Except Err α} {r' : Except Err β} (h : r' = r.map g) :
    Follows Q g r r' := by
  subst h
  constructor
  · rintro v rfl; rfl
  · rintro _ x rfl; rfl

theorem Follows.eq {α β : Type} {g : α → β} {r : Except Err α} {r' : Except Err β} (h : Follows True g r r') : r' = r.map g := by
  cases r with
  | ok v => exact h.1 v rfl
  | error x => exact h.2 trivial x rfl

theorem Follows.imp {α β : Type} {Q Q' : Prop} {g : α → β} {r : Except Err α} {r' : Except Err β} (h : Follows Q g r r')
    (hq : Q' → Q) : Follows Q' g r r' := ⟨h.1, fun q => h.2 (hq q)⟩

section
variable {f : C → List (Str × Val C F) → List (Str × Val C F)} {L L' : Lib C} {strict : Bool} {Q : Prop}

/-- Reading the children with the second library follows reading them with the first. -/
def KidsFollow (Q : Prop) (f : C → List (Str × Val C F) → List (Str × Val C F)) (L L' : Lib C) (strict : Bool)
    (nss : NsMap) (ks : List Xml) : Prop :=
  ∀ k ∈ ks, ∀ c ns, Follows Q (mapObjects f) (parse L strict k c ns nss) (parse L' strict k c ns nss)

theorem getXmlSub_follows (htag : ∀ d, (L'.info d).tag = (L.info d).tag) {nss : NsMap} {ks : List Xml}
    (hk : KidsFollow Q f L L' strict nss ks) (ns : Str) (cs : List (PyType C)) :
    Follows Q (Option.map (mapObjects f)) (getXmlSub L (kidsOf (parse L strict) ks) ns nss cs)
      (getXmlSub L' (kidsOf (parse L' strict) ks) ns nss cs) := by
  induction cs with
  | nil => exact .of_eq rfl
  | cons t cs ih =>
    cases t <;> try exact .of_eq rfl
    rename_i c
    simp only [getXmlSub, find_kidsOf, htag]
    cases hfi : ks.find? (fun k => decide (k.tag = ns ++ (L.info c).tag)) with
    | none => exact ih
    | some k =>
      have hkk := hk k (List.mem_of_find?_eq_some hfi) c ns
      simp only [Option.map_some]
      cases hp : parse (F := F) L strict k c ns nss with
      | error x =>
        refine ⟨by simp, fun q y hy => ?_⟩
        simp only [Except.error.injEq] at hy
        subst hy
        rw [hkk.2 q x hp]
      | ok v => rw [hkk.1 v hp]; exact .of_eq rfl

theorem readAll_follows {nss : NsMap} {ks : List Xml} (hk : KidsFollow Q f L L' strict nss ks) (c : C) (ns : Str) :
    Follows Q (List.map (mapObjects f)) (readAll c ns nss (kidsOf (parse L strict) ks))
      (readAll c ns nss (kidsOf (parse L' strict) ks)) := by
  induction ks with
  | nil => exact .of_eq rfl
  | cons k ks ih =>
    have ih := ih fun x hx => hk x (by simp [hx])
    simp only [kidsOf] at ih
    have hkk := hk k (by simp) c ns
    simp only [kidsOf, List.map_cons, readAll]
    cases hp : parse (F := F) L strict k c ns nss with
    | error x =>
      refine ⟨by simp, fun q y hy => ?_⟩
      simp only [Except.error.injEq] at hy
      subst hy
      rw [hkk.2 q x hp]
    | ok v =>
      rw [hkk.1 v hp]
      simp only
      cases hr : readAll (F := F) c ns nss (ks.map fun k => ⟨k.tag, parse L strict k⟩) with
      | error x =>
        refine ⟨by simp, fun q y hy => ?_⟩
        simp only [Except.error.injEq] at hy
        subst hy
        rw [ih.2 q x hr]
      | ok vs => rw [ih.1 vs hr]; exact .of_eq rfl

theorem getXmlSubList_follows (htag : ∀ d, (L'.info d).tag = (L.info d).tag) {nss : NsMap} {ks : List Xml}
    (hk : KidsFollow Q f L L' strict nss ks) (ns : Str) (cs : List (PyType C)) :
    Follows Q (List.map (mapObjects f)) (getXmlSubList L (kidsOf (parse L strict) ks) ns nss cs)
      (getXmlSubList L' (kidsOf (parse L' strict) ks) ns nss cs) := by
  induction cs with
  | nil => exact .of_eq rfl
  | cons t cs ih =>
    cases t <;> try exact .of_eq rfl
    rename_i c
    have hsub : KidsFollow Q f L L' strict nss (ks.filter fun k => decide (k.tag = ns ++ (L.info c).tag)) :=
      fun x hx => hk x (List.mem_filter.mp hx).1
    have hr := readAll_follows hsub c ns
    simp only [getXmlSubList, filter_kidsOf, htag]
    cases h1 : readAll (F := F) c ns nss (kidsOf (parse L strict)
        (ks.filter fun k => decide (k.tag = ns ++ (L.info c).tag))) with
    | error x =>
      refine ⟨by simp, fun q y hy => ?_⟩
      simp only [Except.error.injEq] at hy
      subst hy
      rw [hr.2 q x h1]
    | ok vs =>
      rw [hr.1 vs h1]
      simp only
      cases h2 : getXmlSubList L (kidsOf (parse (F := F) L strict) ks) ns nss cs with
      | error x =>
        refine ⟨by simp, fun q y hy => ?_⟩
        simp only [Except.error.injEq] at hy
        subst hy
        rw [ih.2 q x h2]
      | ok ws => rw [ih.1 ws h2]; exact .of_eq (by simp only [Except.map, List.map_append])

theorem wrap_follows {α : Type} {g : α → Val C F} (hg : ∀ a, mapObjects f (g a) = g a) (r : Except Err (Option α)) :
    Follows Q (Option.map (mapObjects f)) (wrap g r) (wrap g r) := by
  refine .of_eq ?_
  cases r with
  | error e => rfl
  | ok o => cases o with
    | none => rfl
    | some a => simp only [wrap, Except.map, Option.map_some, hg]

theorem getKwarg_follows (htag : ∀ d, (L'.info d).tag = (L.info d).tag) {e : Xml} {nss : NsMap}
    (hk : KidsFollow Q f L L' strict nss e.kids) (it : Item C) (ns : Str) :
    Follows Q (Option.map (mapObjects f)) (getKwarg L it strict ns nss e (kidsOf (parse L strict) e.kids))
      (getKwarg L' it strict ns nss e (kidsOf (parse L' strict) e.kids)) := by
  unfold getKwarg
  have hstr : ∀ o : Option Str, Follows Q (Option.map (mapObjects f)) (.ok (o.map Val.str)) (.ok (o.map Val.str)) := by
    intro o
    refine .of_eq ?_
    cases o <;> simp only [Except.map, Option.map_none, Option.map_some, mapObjects]
  cases it.get <;> simp only
  case nodeText => exact hstr _
  case subText => exact hstr _
  case attrText => exact hstr _
  case subBool =>
    split
    · exact wrap_follows (by intro a; simp only [mapObjects]) _
    · exact .of_eq rfl
  case subEnum =>
    split
    · exact wrap_follows (by intro a; simp only [mapObjects]) _
    · exact .of_eq rfl
  case attrEnum =>
    split
    · exact wrap_follows (by intro a; simp only [mapObjects]) _
    · exact .of_eq rfl
  case xmlSub => exact getXmlSub_follows htag hk ns _
  case xmlSubList =>
    have h := getXmlSubList_follows htag hk ns it.classes
    cases h1 : getXmlSubList L (kidsOf (parse (F := F) L strict) e.kids) ns nss it.classes with
    | error x =>
      refine ⟨by simp, fun q y hy => ?_⟩
      simp only [Except.error.injEq] at hy
      subst hy
      rw [h.2 q x h1]
    | ok vs => rw [h.1 vs h1]; exact .of_eq (by simp only [Except.map, Option.map_some, mapObjects_list])
  all_goals exact wrap_follows (by intro a; simp only [mapObjects]) _

theorem tryNs_follows (htag : ∀ d, (L'.info d).tag = (L.info d).tag) {e : Xml} {nss : NsMap}
    (hk : KidsFollow Q f L L' strict nss e.kids) (it : Item C) (ids : List Str) :
    Follows Q (Option.map (mapObjects f)) (tryNs L it strict nss e (kidsOf (parse L strict) e.kids) ids)
      (tryNs L' it strict nss e (kidsOf (parse L' strict) e.kids) ids) := by
  induction ids with
  | nil => exact .of_eq rfl
  | cons i ids ih =>
    have h := getKwarg_follows htag hk it (nsGet nss i)
    simp only [tryNs]
    cases h1 : getKwarg L it strict (nsGet nss i) nss e (kidsOf (parse (F := F) L strict) e.kids) with
    | error x =>
      refine ⟨by simp, fun q y hy => ?_⟩
      simp only [Except.error.injEq] at hy
      subst hy
      rw [h.2 q x h1]
    | ok o =>
      rw [h.1 o h1]
      cases o with
      | none => exact ih
      | some v => exact .of_eq rfl

theorem dset_mapKw (a : Str) (v : Val C F) (kw : List (Str × Val C F)) :
    dset a (mapObjects f v) (mapKw f kw) = mapKw f (dset a v kw) := by
  induction kw with
  | nil => rfl
  | cons p kw ih =>
    obtain ⟨k, w⟩ := p
    simp only [mapKw] at ih
    simp only [mapKw, List.map_cons, dset]
    split
    · rfl
    · simp only [List.map_cons, ih]

/-- The keyword arguments that are kept, with changed objects. -/
def keepKw (keep : Str → Bool) (f : C → List (Str × Val C F) → List (Str × Val C F)) (kw : List (Str × Val C F)) :
    List (Str × Val C F) :=
  mapKw f (kw.filter fun p => keep p.1)

theorem filter_dset_keep {keep : Str → Bool} {a : Str} (h : keep a = true) (v : Val C F) (kw : List (Str × Val C F)) :
    (dset a v kw).filter (fun p => keep p.1) = dset a v (kw.filter fun p => keep p.1) := by
  induction kw with
  | nil => simp [dset, h]
  | cons p kw ih =>
    obtain ⟨k, w⟩ := p
    simp only [dset]
    by_cases hka : k = a
    · subst hka; simp [h, dset]
    · by_cases hk : keep k = true
      · simp [hka, hk, dset, ih]
      · simp [hka, hk, ih]

theorem filter_dset_drop {keep : Str → Bool} {a : Str} (h : keep a = false) (v : Val C F) (kw : List (Str × Val C F)) :
    (dset a v kw).filter (fun p => keep p.1) = kw.filter fun p => keep p.1 := by
  induction kw with
  | nil => simp [dset, h]
  | cons p kw ih =>
    obtain ⟨k, w⟩ := p
    simp only [dset]
    by_cases hka : k = a
    · subst hka; simp [h]
    · by_cases hk : keep k = true
      · simp [hka, hk, ih]
      · simp [hka, hk, ih]

theorem getKwargs_follows (htag : ∀ d, (L'.info d).tag = (L.info d).tag) {e : Xml} {nss : NsMap}
    (hk : KidsFollow Q f L L' strict nss e.kids) (keep : Str → Bool) {items : List (Item C)}
    (hq : Q → ∀ it ∈ items, keep it.attr = false → ∀ x,
      tryNs L it strict nss e (kidsOf (parse (F := F) L strict) e.kids) it.nsIds ≠ .error x)
    (kw : List (Str × Val C F)) :
    Follows Q (keepKw keep f) (getKwargs L strict nss e (kidsOf (parse L strict) e.kids) items kw)
      (getKwargs L' strict nss e (kidsOf (parse L' strict) e.kids) (items.filter fun it => keep it.attr)
        (keepKw keep f kw)) := by
  induction items generalizing kw with
  | nil => exact .of_eq rfl
  | cons it items ih =>
    have ih := fun kw => ih (fun q i hi => hq q i (by simp [hi])) kw
    have h := tryNs_follows htag hk it it.nsIds
    simp only [getKwargs, List.filter_cons]
    by_cases hkeep : keep it.attr = true
    · simp only [hkeep, if_true, getKwargs]
      cases h1 : tryNs L it strict nss e (kidsOf (parse (F := F) L strict) e.kids) it.nsIds with
      | error x =>
        refine ⟨by simp, fun q y hy => ?_⟩
        simp only [Except.error.injEq] at hy
        subst hy
        rw [h.2 q x h1]
      | ok o =>
        rw [h.1 o h1]
        cases o with
        | none => exact ih kw
        | some v =>
          have := ih (dset it.attr v kw)
          rw [keepKw, filter_dset_keep hkeep, ← dset_mapKw] at this
          exact this
    · have hkeep' : keep it.attr = false := by simpa using hkeep
      simp only [hkeep', Bool.false_eq_true, if_false]
      cases h1 : tryNs L it strict nss e (kidsOf (parse (F := F) L strict) e.kids) it.nsIds with
      | error x => exact ⟨by simp, fun q => absurd h1 (hq q it (by simp) hkeep' x)⟩
      | ok o =>
        cases o with
        | none => exact ih kw
        | some v =>
          have := ih (dset it.attr v kw)
          rw [keepKw, filter_dset_drop hkeep'] at this
          exact this

end

/-! ## Forgetting the new attribute -/

section
variable {L : Lib C} {c : C} {it : Item C}

/-- The change that `forget` makes to an object. -/
def dropAttr (L : Lib C) (c : C) (a : Str) (d : C) (attrs : List (Str × Val C F)) : List (Str × Val C F) :=
  if Inherits L d c then attrs.filter (fun p => decide (p.1 ≠ a)) else attrs

theorem forget_eq (L : Lib C) (c : C) (a : Str) : forget (F := F) L c a = mapObjects (dropAttr L c a) := rfl

theorem dropAttr_respects (hf : NewAttr L c it) : Respects (F := F) (dropAttr L c it.attr) (L.register c it) L := by
  refine ⟨fun _ => rfl, fun _ => rfl, fun d a l ha => ?_⟩
  unfold dropAttr
  by_cases hd : Inherits L d c
  · rw [if_pos hd]
    have hne : a ≠ it.attr := by
      rintro rfl
      rcases ha with ha | ha
      · exact hf.builtin ha
      · exact hf.bool d hd ha
    exact kwGet_filter (q := fun b => decide (b ≠ it.attr)) (by simpa using hne) l
  · rw [if_neg hd]

/-- The attributes that are kept in objects of class `d`. -/
def keeps (L : Lib C) (c : C) (a : Str) (d : C) (b : Str) : Bool := !(decide (Inherits L d c)) || decide (b ≠ a)

theorem dropAttr_keeps (L : Lib C) (c : C) (a : Str) (d : C) (attrs : List (Str × Val C F)) :
    dropAttr L c a d attrs = attrs.filter fun p => keeps L c a d p.1 := by
  unfold dropAttr keeps
  by_cases hd : Inherits L d c
  · simp [hd]
  · rw [if_neg hd, List.filter_eq_self.mpr]
    simp [hd]

theorem items_keeps (hf : NewAttr L c it) (d : C) :
    ((L.register c it).itemsOf d).filter (fun i => keeps L c it.attr d i.attr) = L.itemsOf d := by
  by_cases hd : Inherits L d c
  · have := itemsOf_register_filter L c it (d := d) (hf.items d hd)
    simpa [keeps, hd] using this
  · rw [itemsOf_register_other L c it hd, List.filter_eq_self.mpr]
    simp [keeps, hd]

theorem sameKw_keep {f : C → List (Str × Val C F) → List (Str × Val C F)} {keep : Str → Bool} {names : List Str}
    (h : ∀ a ∈ names, keep a = true) (kw : List (Str × Val C F)) : SameKw f names kw (keepKw keep f kw) := by
  intro a ha
  rw [keepKw, kwGet_mapKw, kwGet_filter (h a ha)]

theorem filter_self_keys {keep : Str → Bool} {l : List (Str × Val C F)} (h : ∀ a ∈ l.map Prod.fst, keep a = true) :
    l.filter (fun p => keep p.1) = l := by
  rw [List.filter_eq_self]
  exact fun p hp => h p.1 (List.mem_map_of_mem (f := Prod.fst) hp)

theorem mapKw_filter (f : C → List (Str × Val C F) → List (Str × Val C F)) (keep : Str → Bool) (l : List (Str × Val C F)) :
    (mapKw f l).filter (fun p => keep p.1) = mapKw f (l.filter fun p => keep p.1) := by
  simp only [mapKw, List.filter_map]; rfl

theorem construct_forget (hf : NewAttr L c it) (d : C) (ns : Str) (nss : NsMap) (kw : List (Str × Val C F)) :
    construct L d ns nss (keepKw (keeps L c it.attr d) (dropAttr L c it.attr) kw) =
      (construct (L.register c it) d ns nss kw).map (forget L c it.attr) := by
  have hR := dropAttr_respects (F := F) hf
  have hkn : ∀ a ∈ specialArgs (L.info d).special ++ (L.info d).slots.map Prod.fst, keeps L c it.attr d a = true := by
    intro a ha
    by_cases hd : Inherits L d c
    · have : a ≠ it.attr := by rintro rfl; exact hf.known d hd ha
      simp [keeps, this]
    · simp [keeps, hd]
  have hbu : ∀ a ∈ Spec.builtin, keeps L c it.attr d a = true := by
    intro a ha
    have : a ≠ it.attr := by rintro rfl; exact hf.builtin ha
    simp [keeps, this]
  have hs := specialInit_mapObjects hR (L.info d).special (sameKw_keep hbu kw)
  have hsl := fillSlots_mapObjects hR (l := (L.info d).slots)
    (sameKw_keep (f := dropAttr L c it.attr) (fun a ha => hkn a (List.mem_append.mpr (.inr ha))) kw)
  have e0 : construct (L.register c it) d ns nss kw =
      (if (kw.filter fun p => decide (p.1 ∉ specialArgs (L.info d).special ++ (L.info d).slots.map Prod.fst)) ≠ [] ∧
          (L.info d).kwargs = false then .error .typeError
      else match specialInit (L.register c it) (L.info d).special kw with
        | .error e => .error e
        | .ok sp => match fillSlots (L.register c it) kw (L.info d).slots with
          | .error e => .error e
          | .ok sl => .ok (.obj d ns (mergeNs nss)
            ((kw.filter fun p => decide (p.1 ∉ specialArgs (L.info d).special ++ (L.info d).slots.map Prod.fst)) ++ sp ++ sl))) :=
    rfl
  rw [e0]
  simp only [construct]
  rw [hs, hsl]
  have hex : (keepKw (keeps L c it.attr d) (dropAttr L c it.attr) kw).filter
        (fun p => decide (p.1 ∉ specialArgs (L.info d).special ++ (L.info d).slots.map Prod.fst)) =
      keepKw (keeps L c it.attr d) (dropAttr L c it.attr)
        (kw.filter fun p => decide (p.1 ∉ specialArgs (L.info d).special ++ (L.info d).slots.map Prod.fst)) := by
    rw [keepKw, mapKw_filter (dropAttr L c it.attr)
      (fun a => decide (a ∉ specialArgs (L.info d).special ++ (L.info d).slots.map Prod.fst)), keepKw,
      List.filter_filter, List.filter_filter]
    congr 2
    funext p
    rw [Bool.and_comm]
  rw [hex]
  have hcond : (keepKw (keeps L c it.attr d) (dropAttr L c it.attr)
        (kw.filter fun p => decide (p.1 ∉ specialArgs (L.info d).special ++ (L.info d).slots.map Prod.fst)) ≠ [] ∧
        (L.info d).kwargs = false) ↔
      (kw.filter fun p => decide (p.1 ∉ specialArgs (L.info d).special ++ (L.info d).slots.map Prod.fst)) ≠ [] ∧
        (L.info d).kwargs = false := by
    by_cases hd : Inherits L d c
    · simp [hf.kwargs d hd]
    · rw [keepKw, List.filter_eq_self.mpr (by simp [keeps, hd])]
      simp only [mapKw, ne_eq, List.map_eq_nil_iff]
  by_cases hc : (kw.filter fun p => decide (p.1 ∉ specialArgs (L.info d).special ++ (L.info d).slots.map Prod.fst)) ≠ [] ∧
        (L.info d).kwargs = false
  · rw [if_pos hc, if_pos (hcond.mpr hc)]; rfl
  · rw [if_neg hc, if_neg (fun h => hc (hcond.mp h))]
    cases h1 : specialInit (L.register c it) (L.info d).special kw with
    | error e => rfl
    | ok sp =>
      simp only [Except.map]
      cases h2 : fillSlots (L.register c it) kw (L.info d).slots with
      | error e => rfl
      | ok sl =>
        simp only [Except.map]
        congr 1
        rw [forget_eq, mapObjects_obj, dropAttr_keeps]
        congr 1
        have e1 : (mapKw (dropAttr L c it.attr) sp).filter (fun p => keeps L c it.attr d p.1) = mapKw (dropAttr L c it.attr) sp := by
          apply filter_self_keys
          intro a ha
          apply hkn
          rw [List.mem_append]
          refine .inl (specialInit_keys h1 a ?_)
          simpa [mapKw] using ha
        have e2 : (mapKw (dropAttr L c it.attr) sl).filter (fun p => keeps L c it.attr d p.1) = mapKw (dropAttr L c it.attr) sl := by
          apply filter_self_keys
          intro a ha
          apply hkn
          rw [List.mem_append]
          refine .inr ?_
          rw [← fillSlots_keys h2]
          simpa [mapKw] using ha
        have e3 := mapKw_filter (dropAttr L c it.attr) (keeps L c it.attr d)
          (kw.filter fun p => decide (p.1 ∉ specialArgs (L.info d).special ++ (L.info d).slots.map Prod.fst))
        simp only [mapKw] at e1 e2 e3
        simp only [List.map_append, List.filter_append, keepKw, mapKw, e1, e2, e3]

/-- Reading with the old library follows reading with the extended library. -/
theorem parse_forget (hf : NewAttr L c it) {strict : Bool} {nss : NsMap} (hm : mergeNs nss = nss) (e : Xml) :
    ∀ (d : C) (ns : Str), Follows
      (∀ x, Below x e → ∀ y, tryNs (F := F) (L.register c it) it strict nss x
        (kidsOf (parse (L.register c it) strict) x.kids) it.nsIds ≠ .error y)
      (forget L c it.attr) (parse (F := F) (L.register c it) strict e d ns nss) (parse L strict e d ns nss) := by
  induction e using Xml.ind with
  | h t as x ks ih =>
    intro d ns
    rw [parse_eq, parse_eq]
    simp only [parseStep, hm]
    have hk : KidsFollow (F := F) (∀ z, Below z (Xml.mk t as x ks) → ∀ y, tryNs (F := F) (L.register c it) it strict nss z
        (kidsOf (parse (L.register c it) strict) z.kids) it.nsIds ≠ .error y)
        (dropAttr L c it.attr) (L.register c it) L strict nss (Xml.mk t as x ks).kids := by
      intro k hk d ns
      exact (ih k hk d ns).imp fun q z hz => q z (.kid hk hz)
    have h := getKwargs_follows (L := L.register c it) (L' := L) (fun _ => rfl) hk (keeps L c it.attr d) (items := (L.register c it).itemsOf d) (by
      intro q i hi hkeep y
      rcases mem_itemsOf_register.mp hi with hi | ⟨hi, hd⟩
      · by_cases hd : Inherits L d c
        · have := hf.items d hd i hi
          simp [keeps, this] at hkeep
        · simp [keeps, hd] at hkeep
      · rw [hi]; exact q _ .self y) []
    rw [items_keeps hf d] at h
    rw [show keepKw (keeps L c it.attr d) (dropAttr L c it.attr) ([] : List (Str × Val C F)) = [] from rfl] at h
    cases h1 : getKwargs (F := F) (L.register c it) strict nss (Xml.mk t as x ks)
        (kidsOf (parse (L.register c it) strict) (Xml.mk t as x ks).kids) ((L.register c it).itemsOf d) [] with
    | error y =>
      refine ⟨by simp, fun q z hz => ?_⟩
      simp only [Except.error.injEq] at hz
      subst hz
      rw [h.2 q y h1]
    | ok kw =>
      rw [h.1 kw h1]
      exact .of_eq (construct_forget hf d ns nss kw)

/-! ## The value of the new attribute -/

theorem getKwargs_each {L : Lib C} {strict : Bool} {nss : NsMap} {e : Xml} {kids : List (Kid C F)}
    {items : List (Item C)} {kw0 kw : List (Str × Val C F)} (h : getKwargs L strict nss e kids items kw0 = .ok kw) :
    ∀ i ∈ items, ∃ r, tryNs L i strict nss e kids i.nsIds = .ok r := by
  induction items generalizing kw0 with
  | nil => simp
  | cons i items ih =>
    simp only [getKwargs] at h
    intro j hj
    cases h1 : tryNs L i strict nss e kids i.nsIds with
    | error x => rw [h1] at h; cases h
    | ok r =>
      rcases List.mem_cons.mp hj with rfl | hj
      · exact ⟨r, h1⟩
      · rw [h1] at h
        cases r with
        | none => exact ih h j hj
        | some v => exact ih h j hj

theorem getKwargs_dget {L : Lib C} {strict : Bool} {nss : NsMap} {e : Xml} {kids : List (Kid C F)}
    {it : Item C} {r : Option (Val C F)} (hr : tryNs L it strict nss e kids it.nsIds = .ok r)
    {items : List (Item C)} (hs : ∀ i ∈ items, i.attr = it.attr → i = it) {kw0 kw : List (Str × Val C F)}
    (h0 : r = none → dget it.attr kw0 = none) (hm : it ∈ items ∨ dget it.attr kw0 = r)
    (h : getKwargs L strict nss e kids items kw0 = .ok kw) : dget it.attr kw = r := by
  induction items generalizing kw0 with
  | nil =>
    simp only [getKwargs, Except.ok.injEq] at h
    subst h
    simpa using hm
  | cons i items ih =>
    have ih := fun kw0 => ih (fun j hj => hs j (by simp [hj])) (kw0 := kw0)
    simp only [getKwargs] at h
    by_cases hi : i.attr = it.attr
    · have hii := hs i (by simp) hi
      subst hii
      rw [hr] at h
      cases r with
      | none => exact ih kw0 h0 (.inr (h0 rfl)) h
      | some v => exact ih _ (by simp) (.inr (by rw [dget_dset]; simp)) h
    · have hm' : it ∈ items ∨ dget it.attr kw0 = r := by
        rcases hm with hm | hm
        · rcases List.mem_cons.mp hm with rfl | hm
          · exact absurd rfl hi
          · exact .inl hm
        · exact .inr hm
      cases h1 : tryNs L i strict nss e kids i.nsIds with
      | error x => rw [h1] at h; cases h
      | ok o =>
        rw [h1] at h
        cases o with
        | none => exact ih kw0 h0 hm' h
        | some v =>
          refine ih _ ?_ ?_ h
          · rw [dget_dset, if_neg hi]; exact h0
          · rw [dget_dset, if_neg hi]; exact hm'

theorem dget_filter {q : Str → Bool} {a : Str} (h : q a = true) (kw : List (Str × Val C F)) :
    dget a (kw.filter fun p => q p.1) = dget a kw := by
  induction kw with
  | nil => rfl
  | cons p kw ih =>
    obtain ⟨b, v⟩ := p
    simp only [List.filter_cons]
    by_cases hb : b = a
    · subst hb; simp [h, dget]
    · by_cases hq : q b = true
      · simp [hq, dget, hb, ih]
      · simp [hq, dget, hb, ih]

/-- What reading with the extended library stores in the new attribute. -/
theorem parse_new (hf : NewAttr L c it) {strict : Bool} {e : Xml} {d : C} (hd : Inherits L d c) {ns : Str} {nss : NsMap}
    {v : Val C F} (h : parse (L.register c it) strict e d ns nss = .ok v) :
    ∃ attrs r, v = .obj d ns (mergeNs nss) attrs ∧ dget it.attr attrs = r ∧
      tryNs (L.register c it) it strict (mergeNs nss) e (kidsOf (parse (F := F) (L.register c it) strict) e.kids)
        it.nsIds = .ok r := by
  rw [parse_eq] at h
  simp only [parseStep] at h
  cases h1 : getKwargs (L.register c it) strict (mergeNs nss) e
      (kidsOf (parse (F := F) (L.register c it) strict) e.kids) ((L.register c it).itemsOf d) [] with
  | error x => rw [h1] at h; cases h
  | ok kw =>
    rw [h1] at h
    have hit : it ∈ (L.register c it).itemsOf d := mem_itemsOf_register.mpr (.inr ⟨rfl, hd⟩)
    obtain ⟨r, hr⟩ := getKwargs_each h1 it hit
    have hg := getKwargs_dget hr (items := (L.register c it).itemsOf d) (by
      intro i hi ha
      rcases mem_itemsOf_register.mp hi with hi | ⟨hi, _⟩
      · exact absurd ha (hf.items d hd i hi)
      · exact hi) (by intro _; rfl) (.inl hit) h1
    obtain ⟨ex, sp, sl, hex, hsp, hsl, rfl⟩ := construct_ok h
    rw [mergeNs_idem]
    refine ⟨_, r, rfl, ?_, hr⟩
    have hk := hf.known d hd
    rw [List.mem_append, not_or] at hk
    have e1 : dget it.attr sp = none := by
      rw [dget_eq_none]; exact fun hm => hk.1 (specialInit_keys hsp _ hm)
    have e2 : dget it.attr sl = none := by
      rw [dget_eq_none, fillSlots_keys hsl]; exact hk.2
    rw [dget_append, dget_append, e1, e2, hex,
      dget_filter (q := fun a => decide (a ∉ specialArgs ((L.register c it).info d).special ++
        ((L.register c it).info d).slots.map Prod.fst)) (decide_eq_true (hf.known d hd)), hg]
    cases r <;> rfl

/-! ## Writing without the new attribute -/

/-- Nothing is written for an attribute that is not set, unless its default is. -/
theorem setElement_missing (it : Item C) (ns : Str) (nss : NsMap) (o : Opts) (h : it.dflt = .none ∨ o.verbosity ≠ .verbose)
    (L : Lib C) (el : Xml) :
    setElement it ns nss o (sview L o (.none : Val C F)) el = .ok el := by
  have hv : getValue (.none : Val C F) o.verbosity it.dflt = .none := by
    unfold getValue
    rw [if_neg (by rintro ⟨_, h1, h2⟩; rcases h with h | h <;> contradiction)]
    split <;> rfl
  have ht : (sview L o (.none : Val C F)).truthy = .ok false := by simp [sview, truthy, info, Info.plain]
  unfold setElement
  rw [show (sview L o (.none : Val C F)).v = .none from rfl, hv]
  cases it.set <;> simp only [setNodeText, setSubText, setAttrText, setSubBool, setSubNum, setAttrNum, setSubEnum,
    setAttrEnum, setSubDt, setSubDtList, setCoordsList, setCoordinates, setXmlSub, setXmlSubList, ht,
    show (sview L o (.none : Val C F)).v = .none from rfl]

theorem getattr_plain {L : Lib C} {o : Opts} {sp : Special} {attrs : List (Str × Val C F)} {a : Str} (hb : a ∉ Spec.builtin) :
    getattr sp (serAttrs L o attrs) a = sview L o (attrOf a attrs) := by
  have h1 : ¬ (sp = .track ∧ (a = s% "whens" ∨ a = s% "coords" ∨ a = s% "angles")) := by
    rintro ⟨_, h | h | h⟩ <;> exact hb (by rw [h]; decide)
  rw [getattr_serAttrs, if_neg h1]
  congr 1
  unfold propOf
  rw [if_neg (fun h => h1 ⟨h.1, .inl h.2⟩), if_neg (fun h => h1 ⟨h.1, .inr (.inl h.2)⟩),
    if_neg (fun h => h1 ⟨h.1, .inr (.inr h.2)⟩)]

theorem setAll_filter {ns : Str} {nss : NsMap} {o : Opts} {sp : Special} {A : List (Str × SView C F)} {keep : Item C → Bool}
    {items : List (Item C)}
    (h : ∀ i ∈ items, keep i = false → ∀ el, setElement i ns nss o (getattr sp A i.attr) el = .ok el) (el : Xml) :
    setAll ns nss o sp A items el = setAll ns nss o sp A (items.filter keep) el := by
  induction items generalizing el with
  | nil => rfl
  | cons i items ih =>
    have ih := fun el => ih (fun j hj => h j (by simp [hj])) el
    by_cases hk : keep i = true
    · simp only [List.filter_cons, hk, if_true, setAll, ih]
    · have hk : keep i = false := by simpa using hk
      simp only [List.filter_cons, hk, Bool.false_eq_true, if_false, setAll, h i (by simp) hk el, ih]

theorem info_register (L : Lib C) (c : C) (it : Item C) (v : Val C F) : info (L.register c it) v = info L v := by
  induction v using Val.objInd with
  | hother v hv => cases v <;> first | exact absurd rfl (hv _ _ _ _) | simp only [info]
  | hobj d ns nss attrs ih1 ih2 =>
    have e : infoAttrs (L.register c it) attrs = infoAttrs L attrs := by
      rw [infoAttrs_eq, infoAttrs_eq]
      refine List.map_congr_left fun p hp => ?_
      obtain ⟨a, w⟩ := p
      rw [ih1 a w hp]
      congr 2
      cases w <;> simp only [infoElems, infoList_eq]
      exact List.map_congr_left fun x hx => ih2 a _ hp x hx
    rw [info_obj, info_obj, e, register_info]

theorem truthy_register (L : Lib C) (c : C) (it : Item C) (v : Val C F) : truthy (L.register c it) v = truthy L v := by
  rw [truthy, info_register, truthy]

/-- Objects without the new attribute are written as before. -/
theorem ser_register (hf : NewAttr L c it) {o : Opts} (ho : it.dflt = .none ∨ o.verbosity ≠ .verbose) (v : Val C F) :
    Everywhere (fun d _ _ attrs => Inherits L d c → attrOf it.attr attrs = .none) v →
    ser (L.register c it) o v = ser L o v := by
  induction v using Val.objInd with
  | hother v hv => intro _; cases v <;> first | exact absurd rfl (hv _ _ _ _) | simp only [ser]
  | hobj d ns nss attrs ih1 ih2 =>
    intro h
    have e : serAttrs (L.register c it) o attrs = serAttrs L o attrs := by
      rw [serAttrs_eq, serAttrs_eq]
      refine List.map_congr_left fun p hp => ?_
      obtain ⟨a, w⟩ := p
      have hw := everywhere_attr h hp
      rw [ih1 a w hp hw, truthy_register]
      congr 2
      cases w <;> simp only [serMembers, serList_eq]
      refine List.map_congr_left fun x hx => ?_
      rw [truthy_register, ih2 a _ hp x hx (everywhere_member hw hx)]
    rw [ser_obj, ser_obj, e]
    have key : ∀ el, setAll ns nss o (L.info d).special (serAttrs L o attrs) ((L.register c it).itemsOf d) el =
        setAll ns nss o (L.info d).special (serAttrs L o attrs) (L.itemsOf d) el := by
      intro el
      by_cases hd : Inherits L d c
      · rw [setAll_filter (keep := fun i => decide (i.attr ≠ it.attr)), itemsOf_register_filter L c it (hf.items d hd)]
        intro i hi hk el
        have hk : i.attr = it.attr := by simpa using hk
        have hii : i = it := by
          rcases mem_itemsOf_register.mp hi with hi | ⟨hi, _⟩
          · exact absurd hk (hf.items d hd i hi)
          · exact hi
        rw [hii, getattr_plain hf.builtin, h d ns nss attrs .self hd]
        exact setElement_missing it ns nss o ho L el
      · rw [itemsOf_register_other L c it hd]
    by_cases hk : (L.info d).special = .kml
    · simp only [serStep]
      rw [if_pos hk, if_pos (show ((L.register c it).info d).special = .kml from hk)]
      rfl
    · simp only [serStep]
      rw [if_neg hk, if_neg (show ¬ ((L.register c it).info d).special = .kml from hk)]
      exact key _

end

end Verif
