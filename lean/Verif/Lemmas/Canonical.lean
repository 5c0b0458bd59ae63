import Verif.Spec.Canonical
import Verif.Lemmas.CycleRead

/-!
# Canonical objects in a write/read cycle
-/

set_option linter.unusedSectionVars false
set_option linter.unusedSimpArgs false

namespace Verif

open Spec

variable {C F : Type} [DecidableEq C] [PyExt F]

theorem mapScalars_obj (L : Lib C) (f : Item C → Val C F → Val C F) (c : C) (ns : Str) (nss : NsMap)
    (attrs : List (Str × Val C F)) :
    mapScalars L f (.obj c ns nss attrs) = .obj c ns nss (attrs.map fun p =>
      (p.1, changeScalar (L.itemsOf c) f p.1 p.2 (mapScalars L f p.2))) := by
  have h : ∀ (items : List (Item C)) (l : List (Str × Val C F)), mapScalarsAttrs L f items l =
      l.map fun p => (p.1, changeScalar items f p.1 p.2 (mapScalars L f p.2)) := by
    intro items l
    induction l with
    | nil => simp only [mapScalarsAttrs, List.map_nil]
    | cons p l ih => obtain ⟨a, v⟩ := p; simp only [mapScalarsAttrs, List.map_cons, ih]
  simp only [mapScalars, h]

theorem mapScalars_list (L : Lib C) (f : Item C → Val C F → Val C F) (l : List (Val C F)) :
    mapScalars L f (.list l) = .list (l.map (mapScalars L f)) := by
  have h : ∀ l : List (Val C F), mapScalarsList L f l = l.map (mapScalars L f) := by
    intro l
    induction l with
    | nil => simp only [mapScalarsList, List.map_nil]
    | cons v l ih => simp only [mapScalarsList, List.map_cons, ih]
  simp only [mapScalars, h]

theorem mapScalars_isInst (L : Lib C) (f : Item C → Val C F → Val C F) (cs : List (PyType C)) (v : Val C F) :
    isInst cs (mapScalars L f v) = isInst cs v := by
  cases v <;> simp only [mapScalars, isInst]

/-- A dictionary without repeated keys, key by key. -/
theorem attrs_eq {attrs : List (Str × Val C F)} (hn : (attrs.map Prod.fst).Nodup) :
    attrs = (attrs.map Prod.fst).map fun a => (a, attrOf a attrs) := by
  rw [List.map_map]
  conv => lhs; rw [← List.map_id attrs]
  apply List.map_congr_left
  intro p hp
  obtain ⟨a, v⟩ := p
  simp [attrOf, dget_of_mem hn hp]

theorem roundTo_none (f : F) : roundTo none f = f := rfl

theorem map_roundTo_none (l : List F) : l.map (roundTo none) = l := by
  rw [show (roundTo none : F → F) = id from rfl, List.map_id]

theorem rereadRow_none (r : TrackItem F) : rereadRow none r = r := by
  obtain ⟨w, c, a⟩ := r
  cases a <;> simp [rereadRow, map_roundTo_none, roundTo_none]

theorem regroup_map {cs : List (PyType C)} {f : Val C F → Val C F} (hf : ∀ t v, isInst [t] (f v) = isInst [t] v)
    (l : List (Val C F)) : regroup cs (l.map f) = (regroup cs l).map f := by
  unfold regroup
  rw [List.map_flatMap]
  apply flatMap_congr_mem
  intro t _
  rw [List.filter_map]
  congr 1
  apply List.filter_congr
  intro v _
  exact hf t v

theorem nodup_layout {L : Lib C} {c : C} (hR : ReadOk L c) :
    ((if (L.info c).special = .track then [s% "track_items"] else []) ++ (L.info c).slots.map Prod.fst).Nodup := by
  have hk := hR.known
  rw [List.nodup_append] at hk ⊢
  refine ⟨by split <;> simp, hk.2.1, ?_⟩
  intro a ha b hb
  refine hk.2.2 a ?_ b hb
  split at ha
  · rename_i ht
    rw [ht]; simp only [List.mem_singleton] at ha; rw [ha]; simp [specialArgs]
  · cases ha

theorem changeScalar_item {L : Lib C} {c : C} (hR : ReadOk L c) {it : Item C} (hit : it ∈ L.itemsOf c)
    (f : Item C → Val C F → Val C F) (v y : Val C F) :
    changeScalar (L.itemsOf c) f it.attr v y = if scalar it.get then f it v else y := by
  unfold changeScalar
  rw [find_attr hR.attrs hit]

theorem changeScalar_none {items : List (Item C)} {a : Str} (h : ∀ it ∈ items, it.attr ≠ a)
    (f : Item C → Val C F → Val C F) (v y : Val C F) : changeScalar items f a v y = y := by
  unfold changeScalar
  rw [List.find?_eq_none.mpr]
  intro it hit
  simpa using h it hit

theorem Spec.Inside.trans {x y z : Val C F} (h1 : Inside x y) (h2 : Inside y z) : Inside x z := by
  induction h2 with
  | self => exact h1
  | attr hm _ ih => exact .attr hm ih
  | member hm _ ih => exact .member hm ih

theorem everywhere_attr {Q : C → Str → NsMap → List (Str × Val C F) → Prop} {c : C} {ns : Str} {nss : NsMap}
    {attrs : List (Str × Val C F)} (h : Everywhere Q (.obj c ns nss attrs)) {a : Str} {v : Val C F}
    (hm : (a, v) ∈ attrs) : Everywhere Q v := fun c' n' s' a' hin => h c' n' s' a' (.attr hm hin)

theorem everywhere_member {Q : C → Str → NsMap → List (Str × Val C F) → Prop} {l : List (Val C F)}
    (h : Everywhere Q (.list l)) {v : Val C F} (hm : v ∈ l) : Everywhere Q v :=
  fun c' n' s' a' hin => h c' n' s' a' (.member hm hin)

/-- How a cycle with verbosity `vb` changes the scalars of a canonical object. -/
structure Changes (L : Lib C) (P : Pt F → Bool) (N : NsMap) (vb : Verbosity) (f : Item C → Val C F → Val C F) : Prop where
  scalar : ∀ c, ∀ it ∈ L.itemsOf c, scalar it.get = true → ∀ n, (it.attr, n) ∈ (L.info c).slots → ∀ w,
    canonScalar it.get n w → kindOk P it w = true →
    reread it.get (decide (n = .orEmpty)) (shown vb it.dflt.val w) = f it w
  filter : ∀ c, ∀ it ∈ L.itemsOf c, (it.attr, .listTruthy) ∈ (L.info c).slots → ∀ w,
    isInst it.classes w = true → typed L P w = true → AllCanonical L N w → nonEmpty L w = true →
    mapScalars L f w = cycle L ⟨none, vb⟩ N w → nonEmpty L (mapScalars L f w) = true

theorem cycle_canonical {L : Lib C} (hR : ∀ c, ReadOk L c) {P : Pt F → Bool}
    {N : NsMap} {vb : Verbosity} {f : Item C → Val C F → Val C F} (hf : Changes L P N vb f) (v : Val C F) :
    typed L P v = true → AllCanonical L N v → (∃ c ns nss attrs, v = .obj c ns nss attrs) →
    cycle L ⟨none, vb⟩ N v = mapScalars L f v := by
  induction v using Val.objInd with
  | hother v hv => rintro _ _ ⟨c, ns, nss, attrs, h⟩; exact absurd h (hv _ _ _ _)
  | hobj c ns nss attrs ih1 ih2 =>
    intro ht hc _
    have hty := typed_obj.mp ht
    have K := hc c ns nss attrs .self
    have hnd : (attrs.map Prod.fst).Nodup := K.layout ▸ nodup_layout (hR c)
    rw [cycle_obj, mapScalars_obj, K.nss, cycleStep_eq]
    congr 1
    have hattrs : (attrs.map fun p => (p.1, changeScalar (L.itemsOf c) f p.1 p.2 (mapScalars L f p.2))) =
        (attrs.map Prod.fst).map fun a =>
          (a, changeScalar (L.itemsOf c) f a (attrOf a attrs) (mapScalars L f (attrOf a attrs))) := by
      conv => lhs; rw [attrs_eq hnd]
      rw [List.map_map]
      rfl
    rw [hattrs, K.layout, List.map_append]
    congr 1
    · split
      · rename_i hsp
        have hrows := hty.2.1 hsp
        simp only [List.map_cons, List.map_nil, List.cons.injEq, Prod.mk.injEq, true_and, and_true]
        rw [changeScalar_none ((hR c).no_trackItems hsp)]
        unfold trackOk at hrows
        change (match attrOf (s% "track_items") attrs with
          | .items l => l.all fun i => decide (i.coord.length = 2 ∨ i.coord.length = 3)
          | _ => false) = true at hrows
        have hr' : rows attrs = match attrOf (s% "track_items") attrs with
          | .items l => l
          | _ => [] := by unfold rows; rfl
        rw [hr']
        cases hv : attrOf (s% "track_items") attrs <;> rw [hv] at hrows <;> simp at hrows
        rename_i l
        have : (rereadRow none : TrackItem F → TrackItem F) = id := funext rereadRow_none
        simp only [mapScalars, this, List.map_id]
      · rfl
    · rw [List.map_map]
      apply List.map_congr_left
      rintro ⟨a, n⟩ hs
      simp only [Function.comp, Prod.mk.injEq, true_and]
      by_cases hit : ∃ it ∈ L.itemsOf c, it.attr = a
      · obtain ⟨it, hit, rfl⟩ := hit
        rw [cycleAttr_item (hR c) hit, changeScalar_item (hR c) hit]
        have hk := hty.1 it hit
        have hcl : ∀ w, (it.attr, w) ∈ attrs → AllCanonical L N w := fun w hw => everywhere_attr hc hw
        split
        · rename_i hpl
          have hg : it.get = .xmlSub := by revert hpl; cases it.get <;> simp [place]
          have hs : scalar it.get = false := by simp [hg, scalar, place]
          rw [hs]
          simp only [Bool.false_eq_true, if_false]
          rcases K.object it hit hpl with h | h
          · have h : attrOf it.attr attrs = .none := h
            rw [h]
            simp only [cycle, mapScalars, ite_self]
          · have h : nonEmpty L (attrOf it.attr attrs) = true := h
            rw [if_pos h]
            have hne : attrOf it.attr attrs ≠ .none := by
              intro h0; rw [h0] at h; simp [nonEmpty, truthy, info, Info.plain] at h
            have hm := attrOf_mem (a := it.attr) (attrs := attrs) rfl hne
            refine ih1 _ _ hm (typed_attrOf ht _) (hcl _ hm) ?_
            simp only [kindOk, hg] at hk
            cases hv : attrOf it.attr attrs <;> rw [hv] at hk hne <;> simp [isInst] at hk hne
            exact ⟨_, _, _, _, rfl⟩
        · rename_i hpl
          have hg : it.get = .xmlSubList := by revert hpl; cases it.get <;> simp [place]
          have hs' : scalar it.get = false := by simp [hg, scalar, place]
          rw [hs']
          simp only [Bool.false_eq_true, if_false]
          simp only [kindOk, hg] at hk
          cases hv : attrOf it.attr attrs <;> rw [hv] at hk <;> simp at hk
          rename_i l
          obtain ⟨h1, h2⟩ := K.objects it hit hpl l hv
          rw [cycleMembers_list, mapScalars_list, List.filter_eq_self.mpr h1,
            regroup_map (fun t v => cycle_isInst L _ N [t] v), h2]
          have hm : (it.attr, .list l) ∈ attrs := attrOf_mem hv (by simp)
          have hob : ∀ w ∈ l, ∃ c ns nss attrs, w = .obj c ns nss attrs := by
            intro w hw
            have := hk w hw
            obtain ⟨d, x, y, z, h, _⟩ := obj_of_inst this
            exact ⟨d, x, y, z, h⟩
          have heq : l.map (cycle L ⟨none, vb⟩ N) = l.map (mapScalars L f) := by
            apply List.map_congr_left
            intro w hw
            exact ih2 _ _ hm w hw (typed_member ht hv hw) (everywhere_member (hcl _ hm) hw) (hob w hw)
          split
          · rename_i hn
            subst hn
            rw [heq]
            congr 1
            apply List.filter_eq_self.mpr
            intro u hu
            obtain ⟨w, hw, rfl⟩ := List.mem_map.mp hu
            refine hf.filter c it hit hs w (hk w hw) (typed_member ht hv hw) (everywhere_member (hcl _ hm) hw)
              (h1 w hw) ?_
            exact (ih2 _ _ hm w hw (typed_member ht hv hw) (everywhere_member (hcl _ hm) hw) (hob w hw)).symm
          · rw [heq]
        · rename_i hp1 hp2
          by_cases hg : it.get = .coordinates
          · have hs' : scalar it.get = false := by simp [hg, scalar, place]
            rw [hs', if_pos hg]
            simp only [Bool.false_eq_true, if_false]
            simp only [kindOk, hg] at hk
            cases hv : attrOf it.attr attrs <;> rw [hv] at hk <;> simp at hk
            rename_i l
            have : (fun c : Pt F => c.map (roundTo none)) = id := funext map_roundTo_none
            simp only [rereadCoords, mapScalars, this, List.map_id]
          · rw [if_neg hg]
            by_cases hs' : scalar it.get = true
            · rw [hs', if_pos rfl]
              exact hf.scalar c it hit hs' n hs _ (K.scalar it hit hs' n hs) hk
            · exfalso
              have hsl := (hR c).slots it hit
              have : it.get = .subDtList ∨ it.get = .coordsList := by
                revert hs' hg hp1 hp2; cases it.get <;> simp [scalar, place]
              rcases slotOk_iff hsl with ⟨n', _, h⟩ | ⟨hsp, h⟩
              · revert h; rcases this with h | h <;> simp [h, normOk]
              · have hk := (hR c).known
                rw [List.nodup_append] at hk
                refine hk.2.2 it.attr ?_ it.attr (List.mem_map_of_mem (f := Prod.fst) hs) rfl
                rw [hsp]
                rcases h with ⟨h, _⟩ | ⟨h, _⟩ <;> simp_all [specialArgs]
      · have hna : ∀ it ∈ L.itemsOf c, it.attr ≠ a := fun it hi h => hit ⟨it, hi, h⟩
        rw [changeScalar_none hna]
        have := K.unregistered a n hs hna
        have : attrOf a attrs = unset n := this
        rw [this]
        unfold cycleAttr
        rw [List.find?_eq_none.mpr (by simpa using hna)]
        cases n <;> simp [unset, mapScalars, mapScalarsList]

/-! ## The three verbosities -/

theorem changeScalar_id (items : List (Item C)) (a : Str) (v : Val C F) :
    changeScalar items (fun _ w => w) a v v = v := by
  unfold changeScalar; split <;> simp

mutual
theorem mapScalars_id (L : Lib C) : ∀ v : Val C F, mapScalars L (fun _ w => w) v = v
  | .obj c ns nss attrs => by simp only [mapScalars, mapScalarsAttrs_id L (L.itemsOf c) attrs]
  | .list l => by simp only [mapScalars, mapScalarsList_id L l]
  | .none => by simp only [mapScalars]
  | .str _ => by simp only [mapScalars]
  | .bool _ => by simp only [mapScalars]
  | .int _ => by simp only [mapScalars]
  | .float _ => by simp only [mapScalars]
  | .enum _ _ => by simp only [mapScalars]
  | .dt _ => by simp only [mapScalars]
  | .floats _ => by simp only [mapScalars]
  | .coords _ => by simp only [mapScalars]
  | .whens _ => by simp only [mapScalars]
  | .items _ => by simp only [mapScalars]
theorem mapScalarsAttrs_id (L : Lib C) (items : List (Item C)) :
    ∀ l : List (Str × Val C F), mapScalarsAttrs L (fun _ w => w) items l = l
  | [] => by simp only [mapScalarsAttrs]
  | (a, v) :: r => by
    simp only [mapScalarsAttrs, mapScalars_id L v, mapScalarsAttrs_id L items r, changeScalar_id]
theorem mapScalarsList_id (L : Lib C) : ∀ l : List (Val C F), mapScalarsList L (fun _ w => w) l = l
  | [] => by simp only [mapScalarsList]
  | v :: r => by simp only [mapScalarsList, mapScalars_id L v, mapScalarsList_id L r]
end

theorem reread_canon {P : Pt F → Bool} {it : Item C} {n : Norm} {w : Val C F} (h : canonScalar it.get n w)
    (hs : scalar it.get = true) (hk : kindOk P it w = true) (hn : normKeep it.get n = true) :
    reread it.get (decide (n = .orEmpty)) w = w := by
  cases w with
  | none => simp only [canonScalar] at h; simp [reread, h]
  | str s =>
    simp only [canonScalar] at h
    rcases h with h | ⟨h1, h2⟩
    · simp [reread, h]
    · simp [reread, h1, h2]
  | int i => simp only [canonScalar] at h; simp [reread, h]
  | _ => rfl

theorem changes_normal {L : Lib C} {P : Pt F → Bool} (hC : ∀ c, CycleOk L c) (N : NsMap) :
    Changes L P N .normal (fun _ w => w) where
  scalar c it hit hs n hn w hw hk := reread_canon hw hs hk ((hC c).norm _ n hn it hit rfl)
  filter _ _ _ _ w _ _ _ hne _ := by rw [mapScalars_id]; exact hne

/-- The truth value of an object that is filtered does not depend on defaults,
and identifiers have none. -/
def defaultsOk (L : Lib C) (c : C) : Bool :=
  ((L.info c).slots.all fun s => (L.itemsOf c).all fun it => decide (it.attr ≠ s.1) ||
    ((decide (s.2 ≠ .orEmpty) || decide (it.dflt = .none)) &&
     (decide (s.2 ≠ .listTruthy) || it.classes.all fun t => match t with
       | .cls d => match (L.info d).bool with
         | .allTruthy as => as.all fun a =>
           (decide ((L.info d).special = .track) && decide (a = s% "track_items")) ||
           (L.itemsOf d).any fun i => decide (i.attr = a) &&
             ((scalar i.get && decide (i.dflt = .none)) || decide (i.get = .xmlSubList))
         | _ => false
       | _ => false)))

structure DefaultsOk (L : Lib C) (c : C) : Prop where
  ident : ∀ a, (a, .orEmpty) ∈ (L.info c).slots → ∀ it ∈ L.itemsOf c, it.attr = a → it.dflt = .none
  filter : ∀ a, (a, .listTruthy) ∈ (L.info c).slots → ∀ it ∈ L.itemsOf c, it.attr = a → ∀ d, .cls d ∈ it.classes →
    ∃ as, (L.info d).bool = .allTruthy as ∧ ∀ a ∈ as,
      ((L.info d).special = .track ∧ a = s% "track_items") ∨
      ∃ i ∈ L.itemsOf d, i.attr = a ∧ ((scalar i.get = true ∧ i.dflt = .none) ∨ i.get = .xmlSubList)

theorem defaultsOk_iff {L : Lib C} {c : C} (h : defaultsOk L c = true) : DefaultsOk L c := by
  simp only [defaultsOk, List.all_eq_true, Bool.or_eq_true, Bool.and_eq_true, decide_eq_true_eq] at h
  refine ⟨fun a hs it hit ha => ?_, fun a hs it hit ha d hd => ?_⟩
  · rcases h _ hs it hit with h | h
    · exact absurd ha h
    · rcases h.1 with h | h
      · exact absurd rfl h
      · exact h
  · rcases h _ hs it hit with h | h
    · exact absurd ha h
    · rcases h.2 with h | h
      · exact absurd rfl h
      · have := h _ hd
        simp only at this
        split at this
        · rename_i as has
          refine ⟨as, has, fun a ha => ?_⟩
          simpa only [List.all_eq_true, Bool.or_eq_true, Bool.and_eq_true, decide_eq_true_eq, List.any_eq_true] using
            List.all_eq_true.mp this a ha
        · cases this

theorem fastkml_defaultsOk (c : Cls) : DefaultsOk fastkml c := by
  have : ∀ c ∈ Cls.all, defaultsOk fastkml c = true := by decide +kernel
  exact defaultsOk_iff (this c (Cls.mem_all c))

theorem truthy_mapScalars {L : Lib C} {f : Item C → Val C F → Val C F} {v : Val C F}
    (h : ∀ c ns nss as, v ≠ .obj c ns nss as) : truthy L (mapScalars L f v) = truthy L v := by
  cases v with
  | obj c ns nss as => exact absurd rfl (h _ _ _ _)
  | list l => simp [mapScalars_list, truthy, info, Info.plain]
  | _ => simp only [mapScalars]

theorem attrOf_mapScalars (L : Lib C) (f : Item C → Val C F → Val C F) (items : List (Item C)) (a : Str)
    {attrs : List (Str × Val C F)} (h : a ∈ attrs.map Prod.fst) :
    attrOf a (attrs.map fun p => (p.1, changeScalar items f p.1 p.2 (mapScalars L f p.2))) =
      changeScalar items f a (attrOf a attrs) (mapScalars L f (attrOf a attrs)) := by
  induction attrs with
  | nil => simp at h
  | cons p attrs ih =>
    obtain ⟨b, v⟩ := p
    simp only [List.map_cons, attrOf, dget]
    by_cases hb : b = a
    · subst hb; simp
    · simp only [hb, if_false]
      apply ih
      simp only [List.map_cons, List.mem_cons] at h
      rcases h with h | h
      · exact absurd h.symm hb
      · exact h

theorem steady {L : Lib C} (hR : ∀ c, ReadOk L c) {P : Pt F → Bool} {N : NsMap} {f : Item C → Val C F → Val C F}
    (hf : ∀ it w, it.dflt = .none → f it w = w) {c : C} {ns : Str} {nss : NsMap} {attrs : List (Str × Val C F)}
    (ht : typed L P (.obj c ns nss attrs) = true) (hc : AllCanonical L N (.obj c ns nss attrs)) {as : List Str}
    (hb : (L.info c).bool = .allTruthy as)
    (ha : ∀ a ∈ as, ((L.info c).special = .track ∧ a = s% "track_items") ∨
      ∃ i ∈ L.itemsOf c, i.attr = a ∧ ((scalar i.get = true ∧ i.dflt = .none) ∨ i.get = .xmlSubList)) :
    truthy L (mapScalars L f (.obj c ns nss attrs)) = truthy L (.obj c ns nss attrs) := by
  have hty := typed_obj.mp ht
  have K := hc c ns nss attrs .self
  rw [mapScalars_obj]
  unfold truthy
  rw [info_obj, info_obj]
  simp only [infoStep, hb, boolStep]
  congr 1
  apply List.map_congr_left
  intro a hmem
  rw [viewOf_infoAttrs, viewOf_infoAttrs]
  simp only
  have hin : a ∈ attrs.map Prod.fst := by
    rw [K.layout, List.mem_append]
    rcases ha a hmem with ⟨h1, h2⟩ | ⟨i, hi, rfl, h⟩
    · left; rw [if_pos h1, h2]; exact List.mem_singleton.mpr rfl
    · right
      have : i.get ≠ .subDtList ∧ i.get ≠ .coordsList := by
        rcases h with ⟨h, _⟩ | h
        · revert h; cases i.get <;> simp [scalar, place]
        · simp [h]
      obtain ⟨n, hn, _⟩ := slotOk_slot ((hR c).slots i hi) this.1 this.2
      exact List.mem_map_of_mem (f := Prod.fst) hn
  rw [attrOf_mapScalars L f _ a hin]
  rcases ha a hmem with ⟨h1, h2⟩ | ⟨i, hi, rfl, h⟩
  · subst h2
    rw [changeScalar_none ((hR c).no_trackItems h1)]
    have := hty.2.1 h1
    unfold trackOk at this
    refine truthy_mapScalars (L := L) ?_
    intro c' n' s' as' hv
    have hv' : Spec.attr (s% "track_items") attrs = .obj c' n' s' as' := hv
    simp [hv'] at this
  · rw [changeScalar_item (hR c) hi]
    rcases h with ⟨h, hd⟩ | h
    · rw [if_pos h, hf i _ hd]
    · rw [if_neg (by simp [h, scalar, place])]
      refine truthy_mapScalars (L := L) ?_
      intro c' n' s' as' hv
      have := hty.1 i hi
      simp [kindOk, h, hv] at this

theorem changes_of {L : Lib C} (hR : ∀ c, ReadOk L c) {P : Pt F → Bool} (hC : ∀ c, CycleOk L c)
    (hD : ∀ c, DefaultsOk L c) (N : NsMap) {vb : Verbosity} {f : Item C → Val C F → Val C F}
    (hf : ∀ it w, it.dflt = .none → f it w = w)
    (hs : ∀ it n w, (n = .orEmpty → it.dflt = .none) → canonScalar it.get n w →
      reread it.get (decide (n = .orEmpty)) w = w →
      reread it.get (decide (n = .orEmpty)) (shown vb it.dflt.val w) = f it w) :
    Changes L P N vb f where
  scalar c it hit hsc n hn w hw hk := hs it n w (fun h => (hD c).ident _ (h ▸ hn) it hit rfl) hw
    (reread_canon hw hsc hk ((hC c).norm _ n hn it hit rfl))
  filter c it hit hn w hi ht hc hne _ := by
    obtain ⟨d, ns, nss, attrs, rfl, hd⟩ := obj_of_inst hi
    obtain ⟨as, hb, ha⟩ := (hD c).filter _ hn it hit rfl d hd
    have := steady hR hf ht hc hb ha
    unfold nonEmpty at hne ⊢
    rw [this]; exact hne

theorem changes_verbose {L : Lib C} (hR : ∀ c, ReadOk L c) {P : Pt F → Bool} (hC : ∀ c, CycleOk L c)
    (hD : ∀ c, DefaultsOk L c) (N : NsMap) : Changes L P N .verbose fillDefault := by
  refine changes_of hR hC hD N (fun it w hd => ?_) (fun it n w hn hw hr => ?_)
  · unfold fillDefault
    rw [hd]
    cases w <;> simp [isNone, reread, Dflt.val]
  · unfold fillDefault shown
    simp only
    split
    · rename_i h
      have : w = .none := by cases w <;> simp [isNone] at h; rfl
      subst this
      have : n ≠ .orEmpty := hw
      simp [this]
    · exact hr

theorem changes_terse {L : Lib C} (hR : ∀ c, ReadOk L c) {P : Pt F → Bool} (hC : ∀ c, CycleOk L c)
    (hD : ∀ c, DefaultsOk L c) (N : NsMap) : Changes L P N .terse dropDefault := by
  have hnone : ∀ w : Val C F, scalarEq w .none = true → w = .none := by
    intro w h; cases w <;> simp [scalarEq, number] at h; rfl
  refine changes_of hR hC hD N (fun it w hd => ?_) (fun it n w hn hw hr => ?_)
  · unfold dropDefault
    rw [hd]
    split
    · rename_i h; exact (hnone w h).symm
    · rfl
  · unfold dropDefault shown
    simp only
    split
    · rename_i h
      by_cases h0 : n = .orEmpty
      · exfalso
        rw [hn h0] at h
        have := hnone w h
        subst this
        exact hw h0
      · simp [h0, reread]
    · exact hr

end Verif
