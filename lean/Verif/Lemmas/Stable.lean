import Verif.Lemmas.Canonical

/-!
# The result of a cycle is canonical
-/

set_option linter.unusedSectionVars false
set_option linter.unusedSimpArgs false

namespace Verif

open Spec

variable {C F : Type} [DecidableEq C] [PyExt F]

/-! ## Namespaces of the library -/

/-- The namespaces in which things are looked for include those in which they are
written by default. -/
def homeOk (L : Lib C) (c : C) : Bool :=
  (L.itemsOf c).all fun it =>
    (decide (place it.get ≠ .attr) || decide ([] ∈ it.nsIds)) &&
    (decide (place it.get ≠ .child) || decide ((L.info c).nsid ∈ it.nsIds)) &&
    (decide (it.get ≠ .subDt ∧ it.get ≠ .subDtList) || decide (s% "kml" ∈ it.nsIds)) &&
    (decide (it.get ≠ .coordsList) || decide ((L.info c).nsid ∈ it.nsIds)) &&
    (decide (.enum .altitudeMode ∉ it.classes) || (decide (s% "kml" ∈ it.nsIds) && decide (s% "gx" ∈ it.nsIds))) &&
    (it.classes.all fun t => match t with
      | .cls d => (decide (place it.get ≠ .object) || decide ((L.info d).nsid ∈ it.nsIds)) &&
        (decide (place it.get ≠ .objects) || decide (it.nsIds.head? = some (L.info d).nsid))
      | _ => true) &&
    (decide ((L.info c).special ≠ .kml) || decide ((L.info c).nsid = s% "kml")) &&
    (decide (it.get ≠ .subDtList) || (decide (it.nsIds.head? = some (s% "kml")) && decide ((L.info c).nsid ∈ it.nsIds)))

structure HomeOk (L : Lib C) (c : C) : Prop where
  attr : ∀ it ∈ L.itemsOf c, place it.get = .attr → [] ∈ it.nsIds
  child : ∀ it ∈ L.itemsOf c, place it.get = .child → (L.info c).nsid ∈ it.nsIds
  dt : ∀ it ∈ L.itemsOf c, it.get = .subDt ∨ it.get = .subDtList → s% "kml" ∈ it.nsIds
  coords : ∀ it ∈ L.itemsOf c, it.get = .coordsList → (L.info c).nsid ∈ it.nsIds
  mode : ∀ it ∈ L.itemsOf c, .enum .altitudeMode ∈ it.classes → s% "kml" ∈ it.nsIds ∧ s% "gx" ∈ it.nsIds
  object : ∀ it ∈ L.itemsOf c, ∀ d, .cls d ∈ it.classes → place it.get = .object → (L.info d).nsid ∈ it.nsIds
  objects : ∀ it ∈ L.itemsOf c, ∀ d, .cls d ∈ it.classes → place it.get = .objects →
    it.nsIds.head? = some (L.info d).nsid
  whens : ∀ it ∈ L.itemsOf c, it.get = .subDtList → it.nsIds.head? = some (s% "kml") ∧ (L.info c).nsid ∈ it.nsIds

theorem homeOk_iff {L : Lib C} {c : C} (h : homeOk L c = true) : HomeOk L c := by
  simp only [homeOk, List.all_eq_true, Bool.or_eq_true, Bool.and_eq_true, decide_eq_true_eq] at h
  refine ⟨fun it hit hp => ?_, fun it hit hp => ?_, fun it hit hp => ?_, fun it hit hp => ?_, fun it hit hp => ?_,
    fun it hit d hd hp => ?_, fun it hit d hd hp => ?_, fun it hit hp => ?_⟩ <;>
    obtain ⟨⟨⟨⟨⟨⟨⟨h1, h2⟩, h3⟩, h4⟩, h5⟩, h6⟩, h7⟩, h8⟩ := h it hit
  · exact h1.resolve_left (fun h => h hp)
  · exact h2.resolve_left (fun h => h hp)
  · exact h3.resolve_left (fun h => hp.elim h.1 h.2)
  · exact h4.resolve_left (fun h => h hp)
  · exact h5.resolve_left (fun h => h hp)
  · have := h6 _ hd
    simp only [Bool.or_eq_true, Bool.and_eq_true, decide_eq_true_eq] at this
    exact this.1.resolve_left (fun h => h hp)
  · have := h6 _ hd
    simp only [Bool.or_eq_true, Bool.and_eq_true, decide_eq_true_eq] at this
    exact this.2.resolve_left (fun h => h hp)
  · exact h8.resolve_left (fun h => h hp)

theorem fastkml_homeOk (c : Cls) : HomeOk fastkml c := by
  have : ∀ c ∈ Cls.all, homeOk fastkml c = true := by decide +kernel
  exact homeOk_iff (this c (Cls.mem_all c))

theorem objOk_iff {L : Lib C} {P : Pt F → Bool} {c : C} {attrs : List (Str × Val C F)} :
    objOk L P c attrs = true ↔ (∀ it ∈ L.itemsOf c, kindOk P it (attrOf it.attr attrs) = true) ∧
      ((L.info c).special = .track → trackOk attrs = true) := by
  simp only [objOk, Bool.and_eq_true, List.all_eq_true, Bool.or_eq_true, decide_eq_true_eq]
  refine and_congr Iff.rfl ⟨fun h hs => h.resolve_left (fun h => h hs), fun h => ?_⟩
  by_cases hs : (L.info c).special = .track
  · exact Or.inr (h hs)
  · exact Or.inl hs

/-- Objects in their default namespaces are readable. -/
theorem readable_home {L : Lib C} {c : C} (hH : HomeOk L c) (hW : WriteOk L c) {P : Pt F → Bool} {N : NsMap}
    {ns : Str} {nss : NsMap} {attrs : List (Str × Val C F)} (o : Opts)
    (ht : objOk L P c attrs = true) (h0 : nsGet N [] = [])
    (hk : (L.info c).special = .kml → nsGet N (L.info c).nsid ≠ [])
    (hh : Everywhere (fun c ns nss _ => Home L N c ns nss) (.obj c ns nss attrs)) (hc : Complete L c ns nss attrs) :
    Readable L o N c ns nss attrs := by
  have hty := (objOk_iff.mp ht).1
  obtain ⟨hn, hs⟩ := hh c ns nss attrs .self
  subst hn
  refine { attr := fun it hit hp => ?_, child := fun it hit hp => ?_, whens := fun it hit hp => ?_,
           coords := fun it hit hp => ?_, object := fun it hit hp d ns' nss' as hv => ?_,
           objects := fun it hit hp l d ns' nss' as hv hm => ?_, times := hc.times, rows := hc.rows,
           inOrder := hc.inOrder, untimed := fun hsp hu it hit hg => ⟨hc.untimed hsp hu, ?_, ?_⟩,
           schema := hc.schema, kml := fun h => hs ▸ hk h }
  · exact mem_lookups.mpr ⟨[], hH.attr it hit hp, h0⟩
  · have hsc : scalar it.get = true := by simp [scalar, hp]
    have hkd := kindOk_shown hsc (hW.item it hit).dflt (hty it hit) o.verbosity
    generalize hw : shown o.verbosity it.dflt.val (attr it.attr attrs) = w
    have hkd : kindOk P it w = true := by rw [← hw]; exact hkd
    have hown : nsGet nss (L.info c).nsid ∈ lookups nss it := mem_lookups.mpr ⟨_, hH.child it hit hp, rfl⟩
    have henum : ∀ x, w = .enum .altitudeMode x → .enum .altitudeMode ∈ it.classes := by
      rintro x rfl
      revert hkd hsc; simp only [kindOk]; cases it.get <;> simp [scalar, place] <;> intro h <;> simp [h]
    cases w with
    | enum e x =>
      cases e <;> simp only [childNs] <;> try (rw [hs]; exact hown)
      have := hH.mode it hit (henum x rfl)
      split
      · exact mem_lookups.mpr ⟨_, this.2, rfl⟩
      · exact mem_lookups.mpr ⟨_, this.1, rfl⟩
    | dt k =>
      have hg : it.get = .subDt := by
        revert hkd hsc; simp only [kindOk]; cases it.get <;> simp [scalar, place]
      exact mem_lookups.mpr ⟨_, hH.dt it hit (Or.inl hg), rfl⟩
    | _ => simp only [childNs]; rw [hs]; exact hown
  · exact mem_lookups.mpr ⟨_, hH.dt it hit (Or.inr hp), rfl⟩
  · rw [hs]; exact mem_lookups.mpr ⟨_, hH.coords it hit hp, rfl⟩
  · have hv' : attrOf it.attr attrs = .obj d ns' nss' as := hv
    have hm := attrOf_mem hv' (by simp)
    have hg : it.get = .xmlSub := by revert hp; cases it.get <;> simp [place]
    have hkd := hty it hit
    simp only [kindOk, hg, hv', isInst, decide_eq_true_eq] at hkd
    obtain ⟨_, h⟩ := hh d ns' nss' as (.attr hm .self)
    rw [h]; exact mem_lookups.mpr ⟨_, hH.object it hit d (by simpa using hkd) hp, rfl⟩
  · have hv' : attrOf it.attr attrs = .list l := hv
    have hm' := attrOf_mem hv' (by simp)
    have hg : it.get = .xmlSubList := by revert hp; cases it.get <;> simp [place]
    have hkd := hty it hit
    simp only [kindOk, hg, hv', List.all_eq_true] at hkd
    have hkd := hkd _ hm
    obtain ⟨_, h⟩ := hh d ns' nss' as (.attr hm' (.member hm .self))
    rw [h]
    unfold lookups
    rw [List.head?_map, hH.objects it hit d (by simpa [isInst] using hkd) hp]
    rfl
  · rw [hs]
    exact mem_lookups.mpr ⟨_, (hH.whens it hit hg).2, rfl⟩
  · unfold lookups
    rw [List.head?_map, (hH.whens it hit hg).1]
    rfl

/-- An object has the attributes its constructor sets, and those that are not
registered are not set. -/
structure Laid (L : Lib C) (c : C) (attrs : List (Str × Val C F)) : Prop where
  layout : attrs.map Prod.fst =
    (if (L.info c).special = .track then [s% "track_items"] else []) ++ (L.info c).slots.map Prod.fst
  unregistered : ∀ a n, (a, n) ∈ (L.info c).slots → (∀ it ∈ L.itemsOf c, it.attr ≠ a) → attr a attrs = unset n

/-- All objects in such an object are well typed. -/
theorem objOk_laid {L : Lib C} (hR : ∀ c, ReadOk L c) {P : Pt F → Bool} (v : Val C F) :
    typed L P v = true → Everywhere (fun c _ _ attrs => Laid L c attrs) v → (∃ c ns nss attrs, v = .obj c ns nss attrs) →
    Everywhere (fun c _ _ attrs => objOk L P c attrs = true) v := by
  induction v using Val.objInd with
  | hother v hv => rintro _ _ ⟨c, ns, nss, attrs, h⟩; exact absurd h (hv _ _ _ _)
  | hobj c ns nss attrs ih1 ih2 =>
    intro ht hc _ c' ns' nss' attrs' hin
    have hty := typed_obj.mp ht
    have K := hc c ns nss attrs .self
    have hnd : (attrs.map Prod.fst).Nodup := K.layout ▸ nodup_layout (hR c)
    have hplain : ∀ w : Val C F, (∀ c ns nss as, w ≠ .obj c ns nss as) → (∀ l, w ≠ .list l) →
        ¬ Inside (.obj c' ns' nss' attrs') w := by
      intro w h1 h2 hin
      cases hin with
      | self => exact h1 _ _ _ _ rfl
      | attr _ _ => exact h1 _ _ _ _ rfl
      | member _ _ => exact h2 _ rfl
    cases hin with
    | self => exact objOk_iff.mpr ⟨hty.1, hty.2.1⟩
    | @attr _ _ _ _ a w hm hin =>
      have hw : attrOf a attrs = w := by simp [attrOf, dget_of_mem hnd hm]
      have hin0 := hin
      by_cases hit : ∃ it ∈ L.itemsOf c, it.attr = a
      · obtain ⟨it, hit, rfl⟩ := hit
        have hk := hty.1 it hit
        rw [hw] at hk
        cases w with
        | obj c1 n1 s1 a1 =>
          exact ih1 _ _ hm (hty.2.2.1 _ _ hm) (everywhere_attr hc hm) ⟨_, _, _, _, rfl⟩ _ _ _ _ hin
        | list l =>
          cases hin with
          | @member _ u hu hin =>
            have hg : it.get = .subDtList ∨ it.get = .coordsList ∨ it.get = .xmlSubList := by
              revert hk; simp only [kindOk]; cases it.get <;> simp [isInst]
            have hx : it.get = .xmlSubList := by
              rcases slotOk_iff ((hR c).slots it hit) with ⟨n, hn, hno⟩ | ⟨hsp, h'⟩
              · rcases hg with h | h | h
                · simp [h, normOk] at hno
                · simp [h, normOk] at hno
                · exact h
              · exfalso
                have hk := (hR c).known
                rw [List.nodup_append] at hk
                have ha : it.attr ∈ attrs.map Prod.fst := List.mem_map_of_mem (f := Prod.fst) hm
                rw [K.layout, if_pos hsp, List.mem_append, List.mem_singleton] at ha
                rcases ha with ha | ha
                · exact (hR c).no_trackItems hsp it hit ha
                · refine hk.2.2 it.attr ?_ it.attr ha rfl
                  rw [hsp]
                  rcases h' with h' | h' | h' <;> rw [h'.1] <;> simp [specialArgs]
            simp only [kindOk, hx, List.all_eq_true] at hk
            obtain ⟨d, x, y, z, hd, _⟩ := obj_of_inst (hk u hu)
            exact ih2 _ _ hm u hu (hty.2.2.2 _ _ hm u hu) (everywhere_member (everywhere_attr hc hm) hu)
              ⟨_, _, _, _, hd⟩ _ _ _ _ hin
        | _ => exact absurd hin (hplain _ (by simp) (by simp))
      · have hna : ∀ it ∈ L.itemsOf c, it.attr ≠ a := fun it hi h => hit ⟨it, hi, h⟩
        have ha : a ∈ attrs.map Prod.fst := List.mem_map_of_mem (f := Prod.fst) hm
        rw [K.layout, List.mem_append] at ha
        rcases ha with ha | ha
        · split at ha
          · rename_i hsp
            rw [List.mem_singleton] at ha
            subst ha
            have := hty.2.1 hsp
            unfold trackOk at this
            rw [attr_eq, hw] at this
            cases w <;> simp at this
            exact absurd hin (hplain _ (by simp) (by simp))
          · cases ha
        · obtain ⟨⟨b, n⟩, hs, rfl⟩ := List.mem_map.mp ha
          have := K.unregistered b n hs hna
          rw [attr_eq, hw] at this
          subst this
          cases n <;> simp only [unset] at hin <;> first
            | (cases hin with
               | member h _ => cases h)
            | exact absurd hin (hplain _ (by simp) (by simp))

/-- All objects in a canonical object are well typed. -/
theorem objOk_everywhere {L : Lib C} (hR : ∀ c, ReadOk L c) {P : Pt F → Bool} {N : NsMap} (v : Val C F)
    (ht : typed L P v = true) (hc : AllCanonical L N v) (hv : ∃ c ns nss attrs, v = .obj c ns nss attrs) :
    Everywhere (fun c _ _ attrs => objOk L P c attrs = true) v :=
  objOk_laid hR v ht (fun c ns nss as hin => ⟨(hc c ns nss as hin).layout, (hc c ns nss as hin).unregistered⟩) hv

/-! ## The objects in the result -/

theorem everywhere_other {v x : Val C F} (h1 : ∀ c ns nss as, v ≠ .obj c ns nss as) (h2 : ∀ l, v ≠ .list l)
    (h : Inside x v) : x = v := by
  cases h with
  | self => rfl
  | attr _ _ => exact absurd rfl (h1 _ _ _ _)
  | member _ _ => exact absurd rfl (h2 _)

/-- The attributes of the result: a plain value, the result for the object that is
the attribute, or a list of results for members of the list that is the attribute. -/
theorem cycleAttr_cases {L : Lib C} {c : C} (hR : ReadOk L c) (hW : WriteOk L c) (hC : CycleOk L c) {P : Pt F → Bool}
    (o : Opts) (N : NsMap) {ns : Str} {nss : NsMap} {attrs : List (Str × Val C F)}
    (ht : typed L P (.obj c ns nss attrs) = true) {a : Str} {n : Norm} (hs : (a, n) ∈ (L.info c).slots) {v : Val C F}
    (hv : v = cycleAttr L o c attrs (cycle L o N (attrOf a attrs)) (cycleMembers L o N (attrOf a attrs)) a n) :
    ((∀ c ns nss as, v ≠ .obj c ns nss as) ∧ (∀ l, v ≠ .list l)) ∨
    (v = cycle L o N (attrOf a attrs) ∧ nonEmpty L (attrOf a attrs) = true ∧ ∃ c ns nss as, attrOf a attrs = .obj c ns nss as) ∨
    (∃ l, v = .list l ∧ ∀ w ∈ l, w ∈ cycleMembers L o N (attrOf a attrs) ∧ ∃ c ns nss as, w = .obj c ns nss as) := by
  have hty := typed_obj.mp ht
  by_cases hit : ∃ it ∈ L.itemsOf c, it.attr = a
  · obtain ⟨it, hit, rfl⟩ := hit
    rw [cycleAttr_item hR hit] at hv
    have hk := hty.1 it hit
    split at hv
    · rename_i hpl
      have hg : it.get = .xmlSub := by revert hpl; cases it.get <;> simp [place]
      split at hv
      · rename_i hne
        right; left
        refine ⟨hv, hne, ?_⟩
        simp only [kindOk, hg] at hk
        cases hv : attrOf it.attr attrs <;> rw [hv] at hk hne <;> simp [isInst] at hk
        · simp [nonEmpty, truthy, info, Info.plain] at hne
        · exact ⟨_, _, _, _, rfl⟩
      · left; subst hv; simp
    · right; right
      refine ⟨_, hv, fun w hw => ?_⟩
      have hw' : w ∈ regroup it.classes (cycleMembers L o N (attrOf it.attr attrs)) := by
        split at hw
        · exact (List.mem_filter.mp hw).1
        · exact hw
      obtain ⟨d, x, y, z, h, _⟩ := obj_of_inst (regroup_inst hw')
      exact ⟨regroup_mem hw', d, x, y, z, h⟩
    · left
      split at hv
      · subst hv; constructor <;> (intros; unfold rereadCoords; split <;> simp)
      · rename_i hpo hpl hco
        by_cases hsc : scalar it.get = true
        · have hk := kindOk_shown hsc (hW.item it hit).dflt hk o.verbosity
          have hk' := kindOk_reread hsc hk (hC.norm _ n hs it hit rfl)
          rw [← hv] at hk'
          constructor
          · rintro d ns nss as rfl
            revert hk' hsc; simp only [kindOk]; cases it.get <;> simp [scalar, place]
          · rintro l rfl
            revert hk' hsc; simp only [kindOk]; cases it.get <;> simp [scalar, place]
        · exfalso
          rcases slotOk_iff (hR.slots it hit) with ⟨m, hm, hno⟩ | ⟨htr, h'⟩
          · revert hsc hno hpo hpl hco; cases it.get <;> simp [scalar, place, normOk]
          · have hk := hR.known
            rw [List.nodup_append] at hk
            refine hk.2.2 it.attr ?_ it.attr (List.mem_map_of_mem (f := Prod.fst) hs) rfl
            rw [htr]
            rcases h' with h' | h' | h' <;> rw [h'.1] <;> simp [specialArgs]
  · have hf : (L.itemsOf c).find? (fun it => decide (it.attr = a)) = none := by
      rw [List.find?_eq_none]
      intro it hi; simp only [decide_eq_true_eq]; exact fun h => hit ⟨it, hi, h⟩
    have : v = unset n := by rw [hv]; unfold cycleAttr; rw [hf]
    rw [this]
    cases n <;> simp [unset]

/-- The objects in the result are results for objects in the original. -/
theorem inside_cycle {L : Lib C} (hR : ∀ c, ReadOk L c) (hW : ∀ c, WriteOk L c) (hC : ∀ c, CycleOk L c)
    {P : Pt F → Bool} (o : Opts) (N : NsMap) (x : Val C F) (hx : ∃ c ns nss as, x = .obj c ns nss as) (v : Val C F) :
    typed L P v = true → (∃ c ns nss as, v = .obj c ns nss as) → Inside x (cycle L o N v) →
    ∃ c ns nss as, Inside (.obj c ns nss as) v ∧ typed L P (.obj c ns nss as) = true ∧ x = cycle L o N (.obj c ns nss as) := by
  induction v using Val.objInd with
  | hother v hv => rintro _ ⟨c, ns, nss, as, h⟩; exact absurd h (hv _ _ _ _)
  | hobj c ns nss attrs ih1 ih2 =>
    intro ht _ hin
    rw [cycle_obj] at hin
    cases hin with
    | self => exact ⟨_, _, _, _, .self, ht, by rw [cycle_obj]⟩
    | @attr c ns nss as a w hm hin =>
      rw [cycleStep_eq, List.mem_append] at hm
      rcases hm with hm | hm
      · split at hm
        · simp only [List.mem_singleton, Prod.mk.injEq] at hm
          have := everywhere_other (by rw [hm.2]; simp) (by rw [hm.2]; simp) hin
          obtain ⟨_, _, _, _, h⟩ := hx
          rw [this, hm.2] at h; cases h
        · cases hm
      · obtain ⟨⟨b, n⟩, hs, he⟩ := List.mem_map.mp hm
        simp only [Prod.mk.injEq] at he
        obtain ⟨rfl, he⟩ := he
        rcases cycleAttr_cases (hR c) (hW c) (hC c) o N ht hs he.symm with ⟨h1, h2⟩ | ⟨h1, _, h2⟩ | ⟨l, hl, h⟩
        · have := everywhere_other h1 h2 hin
          obtain ⟨_, _, _, _, h⟩ := hx
          rw [this] at h; exact absurd h (h1 _ _ _ _)
        · have hm' : (b, attrOf b attrs) ∈ attrs := attrOf_mem rfl (by obtain ⟨_, _, _, _, h⟩ := h2; rw [h]; simp)
          rw [h1] at hin
          obtain ⟨c', ns', nss', as', h3, h4, h5⟩ := ih1 b _ hm' (typed_attrOf ht b) h2 hin
          exact ⟨c', ns', nss', as', .attr hm' h3, h4, h5⟩
        · rw [hl] at hin
          cases hin with
          | self => obtain ⟨_, _, _, _, h⟩ := hx; cases h
          | @member l w hw hin =>
            obtain ⟨l', u, hl', hu, _, rfl⟩ := cycleMembers_mem (h w hw).1
            have hm' : (b, .list l') ∈ attrs := attrOf_mem hl' (by simp)
            have hob : ∃ c ns nss as, u = .obj c ns nss as := by
              obtain ⟨d, x, y, z, h⟩ := (h _ hw).2
              cases u <;> simp only [cycle] at h <;> first | cases h; done | exact ⟨_, _, _, _, rfl⟩
            obtain ⟨c', ns', nss', as', h3, h4, h5⟩ := ih2 b l' hm' u hu (typed_member ht hl' hu) hob hin
            exact ⟨c', ns', nss', as', .attr hm' (.member hu h3), h4, h5⟩

theorem layout_cycle (L : Lib C) (o : Opts) (N : NsMap) (c : C) (attrs : List (Str × Val C F)) :
    (cycleStep L o c attrs (cycleAttrs L o N attrs)).map Prod.fst =
      (if (L.info c).special = .track then [s% "track_items"] else []) ++ (L.info c).slots.map Prod.fst := by
  rw [cycleStep_eq, List.map_append, List.map_map]
  congr 1
  split <;> rfl

theorem canonScalar_reread {P : Pt F → Bool} {it : Item C} {n : Norm} {w : Val C F} (hs : scalar it.get = true)
    (hk : kindOk P it w = true) : canonScalar it.get n (reread it.get (decide (n = .orEmpty)) w) := by
  cases w with
  | none =>
    by_cases h : n = .orEmpty
    · simp [h, reread, canonScalar]
    · simp [h, reread, canonScalar]
  | str s =>
    by_cases h : n = .orEmpty
    · simp [h, reread, canonScalar]
    · by_cases h' : strip s = []
      · simp [h, h', reread, canonScalar]
      · simp [h, h', reread, canonScalar, strip_idem]
  | int i =>
    by_cases h : it.get = .subFloat ∨ it.get = .attrFloat
    · simp [h, reread, canonScalar]
    · simp only [reread, h, if_false, canonScalar]
      exact ⟨fun h' => h (Or.inl h'), fun h' => h (Or.inr h')⟩
  | _ => simp [reread, canonScalar]

theorem regroup_filter_idem {L : Lib C} {cs : List (PyType C)} (hn : cs.Nodup) (p : Val C F → Bool) (l : List (Val C F)) :
    regroup cs ((regroup cs l).filter p) = (regroup cs l).filter p := by
  unfold regroup
  rw [List.filter_flatMap]
  apply flatMap_congr_mem
  intro t ht
  -- the members of class `t` in the regrouped list are those of block `t`
  have : ∀ cs : List (PyType C), cs.Nodup → (cs.flatMap fun u => (l.filter (isInst [u])).filter p).filter (isInst [t]) =
      if t ∈ cs then (l.filter (isInst [t])).filter p else [] := by
    intro cs
    induction cs with
    | nil => intro _; rfl
    | cons u cs ih =>
      intro hn
      rw [List.nodup_cons] at hn
      rw [List.flatMap_cons, List.filter_append, ih hn.2]
      by_cases hu : t = u
      · subst hu
        rw [if_neg hn.1, if_pos (by simp), List.append_nil, List.filter_filter]
        rw [List.filter_filter]
        rw [List.filter_filter]
        apply List.filter_congr
        intro v _
        cases isInst [t] v <;> cases p v <;> rfl
      · have : ((l.filter (isInst [u])).filter p).filter (isInst [t]) = [] := by
          rw [List.filter_eq_nil_iff]
          intro v hv
          rw [List.mem_filter, List.mem_filter] at hv
          intro h
          have h1 := hv.1.2
          cases v <;> simp [isInst] at h h1
          exact hu (h.symm.trans h1)
        rw [this, List.nil_append]
        have hh : t ∈ u :: cs ↔ t ∈ cs := by simp [hu]
        by_cases hc : t ∈ cs
        · rw [if_pos hc, if_pos (hh.mpr hc)]
        · rw [if_neg hc, if_neg (fun h => hc (hh.mp h))]
  rw [this cs hn, if_pos ht]

theorem regroup_idem {L : Lib C} {cs : List (PyType C)} (hn : cs.Nodup) (l : List (Val C F)) :
    regroup cs (regroup cs l) = regroup cs l := by
  have := regroup_filter_idem (L := L) hn (fun _ => true) l
  rwa [List.filter_eq_self.mpr (fun _ _ => rfl)] at this

/-- The classes of every list are different. -/
theorem fastkml_classesNodup (c : Cls) : ∀ it ∈ fastkml.itemsOf c, it.classes.Nodup := by
  have : ∀ c ∈ Cls.all, ∀ it ∈ fastkml.itemsOf c, it.classes.Nodup := by decide +kernel
  exact this c (Cls.mem_all c)

/-- The result is canonical if no object in it is empty. -/
theorem canonical_cycle {L : Lib C} (hR : ∀ c, ReadOk L c) (hW : ∀ c, WriteOk L c) (hC : ∀ c, CycleOk L c)
    (hN : ∀ c, ∀ it ∈ L.itemsOf c, it.classes.Nodup) {P : Pt F → Bool} (hP : RoundOk P) (o : Opts) (N : NsMap) {v : Val C F}
    (ht : typed L P v = true) (hv : ∃ c ns nss as, v = .obj c ns nss as)
    (hne : Everywhere (fun _ _ _ attrs => NoEmptyChild L attrs) (cycle L o N v)) :
    AllCanonical L N (cycle L o N v) := by
  intro c ns nss attrs hin
  obtain ⟨c', ns', nss', as', h1, h2, h3⟩ := inside_cycle hR hW hC o N _ ⟨_, _, _, _, rfl⟩ v ht hv hin
  obtain ⟨hne1, hne2⟩ := hne _ _ _ _ hin
  rw [cycle_obj] at h3
  simp only [Val.obj.injEq] at h3
  obtain ⟨rfl, rfl, rfl, rfl⟩ := h3
  have hty := typed_obj.mp h2
  have hmem : ∀ a v, attrOf a (cycleStep L o c as' (cycleAttrs L o nss as')) = v → v ≠ .none →
    (a, v) ∈ cycleStep L o c as' (cycleAttrs L o nss as') := fun a v h h' => attrOf_mem h h'
  refine ⟨rfl, layout_cycle L o nss c as', fun a n hs hna => ?_, fun it hit hsc n hs => ?_, fun it hit hp => ?_,
    fun it hit hp l hl => ?_⟩
  · rw [attr_eq, cycleStep_attrOf (hR c) hs]
    unfold cycleAttr
    rw [List.find?_eq_none.mpr (by simpa using hna)]
  · rw [attr_eq, cycleStep_attrOf (hR c) hs, cycleAttr_item (hR c) hit]
    have hk := hty.1 it hit
    have hk := kindOk_shown hsc ((hW c).item it hit).dflt hk o.verbosity
    split
    · rename_i hp; simp [scalar, hp] at hsc
    · rename_i hp; simp [scalar, hp] at hsc
    · rw [if_neg (by intro h; simp [scalar, h, place] at hsc)]
      exact canonScalar_reread hsc hk
  · rw [attr_eq]
    generalize hw : attrOf it.attr (cycleStep L o c as' (cycleAttrs L o nss as')) = w
    have hk := (typed_obj.mp (cycle_obj L o nss c ns nss' as' ▸ typed_cycle hR hW hC hP o nss
      (.obj c ns nss' as') h2)).1 it hit
    rw [hw] at hk
    have hg : it.get = .xmlSub := by revert hp; cases it.get <;> simp [place]
    simp only [kindOk, hg] at hk
    cases w <;> simp [isInst] at hk
    · left; rfl
    · right; exact hne1 _ _ _ _ _ (hmem _ _ hw (by simp))
  · have hl' : attrOf it.attr (cycleStep L o c as' (cycleAttrs L o nss as')) = .list l := hl
    refine ⟨hne2 _ _ (hmem _ _ hl' (by simp)), ?_⟩
    have hg : it.get = .xmlSubList := by revert hp; cases it.get <;> simp [place]
    obtain ⟨n, hn, _, heq⟩ := cycle_item (hR c) (hC c) hit (by simp [hg]) (by simp [hg]) o nss as'
    rw [heq, cycleAttr_item (hR c) hit] at hl'
    simp only [hp, Val.list.injEq] at hl'
    subst hl'
    split
    · exact regroup_filter_idem (L := L) (hN c it hit) _ _
    · exact regroup_idem (L := L) (hN c it hit) _

theorem rows_cycle {L : Lib C} {c : C} (ht : (L.info c).special = .track) (vb : Verbosity) (N : NsMap)
    (attrs : List (Str × Val C F)) :
    rows (cycleStep L ⟨none, vb⟩ c attrs (cycleAttrs L ⟨none, vb⟩ N attrs)) = rows attrs := by
  conv => lhs; unfold rows
  rw [attr_eq, cycleStep_rows ht]
  have : (rereadRow none : TrackItem F → TrackItem F) = id := funext rereadRow_none
  simp only [this, List.map_id]

theorem childNs_reread (g : GetFn) (b : Bool) (ns : Str) (nss : NsMap) (w : Val C F) :
    childNs ns nss (reread g b w) = childNs ns nss w := by
  cases w <;> simp only [reread] <;> (repeat' split) <;> rfl

/-- The result can be read back. -/
theorem readable_cycle {L : Lib C} (hR : ∀ c, ReadOk L c) (hW : ∀ c, WriteOk L c) (hC : ∀ c, CycleOk L c)
    (hH : ∀ c, HomeOk L c) {P : Pt F → Bool} (vb : Verbosity) (N : NsMap) {v : Val C F}
    (ht : typed L P v = true) (hv : ∃ c ns nss as, v = .obj c ns nss as)
    (hr : Everywhere (Readable L ⟨none, vb⟩ N) v) (hsch : Everywhere (fun c _ _ attrs => SchemaId L c attrs) v) :
    Everywhere (Readable L ⟨none, .normal⟩ N) (cycle L ⟨none, vb⟩ N v) := by
  intro c ns nss attrs hin
  obtain ⟨c', ns', nss', as', h1, h2, h3⟩ := inside_cycle hR hW hC _ N _ ⟨_, _, _, _, rfl⟩ v ht hv hin
  have R := hr _ _ _ _ h1
  have hs := hsch _ _ _ _ h1
  rw [cycle_obj] at h3
  simp only [Val.obj.injEq] at h3
  obtain ⟨rfl, rfl, rfl, rfl⟩ := h3
  have hty := typed_obj.mp h2
  have hval : ∀ it ∈ L.itemsOf c, scalar it.get = true → ∃ n, (it.attr, n) ∈ (L.info c).slots ∧
      attr it.attr (cycleStep L ⟨none, vb⟩ c as' (cycleAttrs L ⟨none, vb⟩ nss as')) =
      reread it.get (decide (n = .orEmpty)) (shown vb it.dflt.val (attrOf it.attr as')) := by
    intro it hit hsc
    have hp1 : place it.get ≠ .object := by intro h; simp [scalar, h] at hsc
    have hp2 : place it.get ≠ .objects := by intro h; simp [scalar, h] at hsc
    have hg : it.get ≠ .coordinates := by intro h; simp [scalar, h, place] at hsc
    obtain ⟨n, hn, _, heq⟩ := cycle_item (hR c) (hC c) hit (by intro h; simp [scalar, h, place] at hsc)
      (by intro h; simp [scalar, h, place] at hsc) ⟨none, vb⟩ nss as'
    refine ⟨n, hn, ?_⟩
    rw [attr_eq, heq, cycleAttr_item (hR c) hit]
    split
    · exact absurd (by assumption) hp1
    · exact absurd (by assumption) hp2
    · rw [if_neg hg]
  have hob : ∀ it ∈ L.itemsOf c, place it.get = .object → ∀ d ns' nss'' as,
      attr it.attr (cycleStep L ⟨none, vb⟩ c as' (cycleAttrs L ⟨none, vb⟩ nss as')) = .obj d ns' nss'' as →
      ∃ nss'' as, attr it.attr as' = .obj d ns' nss'' as := by
    intro it hit hp d ns' nss'' as hv
    have hg : it.get = .xmlSub := by revert hp; cases it.get <;> simp [place]
    obtain ⟨n, hn, _, heq⟩ := cycle_item (hR c) (hC c) hit (by simp [hg]) (by simp [hg]) ⟨none, vb⟩ nss as'
    rw [attr_eq, heq, cycleAttr_item (hR c) hit] at hv
    simp only [hp] at hv
    split at hv
    · rw [attr_eq]
      cases hx : attrOf it.attr as' <;> rw [hx] at hv <;> simp only [cycle] at hv <;> cases hv
      exact ⟨_, _, rfl⟩
    · cases hv
  refine { attr := R.attr, child := fun it hit hp => ?_, whens := fun it hit hp => ?_,
           coords := R.coords, object := fun it hit hp d ns' nss'' as hv => ?_,
           objects := fun it hit hp l d ns' nss'' as hv hm => ?_, times := fun it hit hg k hk => ?_,
           rows := fun hsp => ?_, inOrder := fun hsp => ?_, untimed := fun hsp hu it hit hg => ?_,
           schema := fun hsp => ?_, kml := R.kml }
  · have hsc : scalar it.get = true := by simp [scalar, hp]
    obtain ⟨n, hn, heq⟩ := hval it hit hsc
    rw [heq]
    change childNs ns nss (reread _ _ _) ∈ _
    rw [childNs_reread]
    have hkd := kindOk_shown hsc ((hW c).item it hit).dflt (hty.1 it hit) vb
    have hch := R.child it hit hp
    change childNs ns nss' (shown vb it.dflt.val (attrOf it.attr as')) ∈ _ at hch
    revert hkd hch
    generalize shown vb it.dflt.val (attrOf it.attr as') = w
    intro hkd hch
    cases w with
    | enum e x =>
      cases e <;> try exact hch
      have hc : .enum .altitudeMode ∈ it.classes := by
        revert hkd hsc; simp only [kindOk]; cases it.get <;> simp [scalar, place] <;> intro h <;> simp [h]
      have := (hH c).mode it hit hc
      simp only [childNs]
      split
      · exact mem_lookups.mpr ⟨_, this.2, rfl⟩
      · exact mem_lookups.mpr ⟨_, this.1, rfl⟩
    | dt k =>
      have hg : it.get = .subDt := by
        revert hkd hsc; simp only [kindOk]; cases it.get <;> simp [scalar, place]
      exact mem_lookups.mpr ⟨_, (hH c).dt it hit (Or.inl hg), rfl⟩
    | _ => exact hch
  · exact mem_lookups.mpr ⟨_, (hH c).dt it hit (Or.inr hp), rfl⟩
  · obtain ⟨n', s', h⟩ := hob it hit hp _ _ _ _ hv
    exact R.object it hit hp _ _ _ _ h
  · have hg : it.get = .xmlSubList := by revert hp; cases it.get <;> simp [place]
    obtain ⟨n, hn, _, heq⟩ := cycle_item (hR c) (hC c) hit (by simp [hg]) (by simp [hg]) ⟨none, vb⟩ nss as'
    rw [attr_eq, heq, cycleAttr_item (hR c) hit] at hv
    simp only [hp, Val.list.injEq] at hv
    have hm' : .obj d ns' nss'' as ∈ cycleMembers L ⟨none, vb⟩ nss (attrOf it.attr as') := by
      rw [← hv] at hm
      split at hm
      · exact regroup_mem (List.mem_filter.mp hm).1
      · exact regroup_mem hm
    obtain ⟨l', u, hl', hu, _, he⟩ := cycleMembers_mem hm'
    cases u <;> simp only [cycle] at he <;> cases he
    exact R.objects it hit hp l' _ _ _ _ hl' hu
  · have hsc : scalar it.get = true := by simp [scalar, hg, place]
    obtain ⟨n, hn, heq⟩ := hval it hit hsc
    rw [heq] at hk
    have hrr : ∀ w : Val C F, reread it.get (decide (n = .orEmpty)) w = .dt k → w = .dt k := by
      intro w hw
      cases w <;> simp only [reread] at hw <;> (repeat' split at hw) <;> first | (cases hw; done) | exact hw
    have := hrr _ hk
    refine R.times it hit hg k ?_
    rw [attr_eq]
    cases vb <;> simp only [shown] at this
    · split at this
      · cases this
      · exact this
    · exact this
    · split at this
      · cases hd : it.dflt <;> rw [hd] at this <;> cases this
      · exact this
  · rw [rows_cycle hsp]; exact R.rows hsp
  · rw [rows_cycle hsp]; exact R.inOrder hsp
  · rw [rows_cycle hsp] at hu
    obtain ⟨h1, h2, h3⟩ := R.untimed hsp hu it hit hg
    have h4 : (lookups nss it).head? = some (nsGet nss (s% "kml")) := by
      have := ((hH c).whens it hit hg).1
      unfold lookups
      rw [List.head?_map, this]; rfl
    refine ⟨?_, h2, h4⟩
    rw [h4] at h3
    rw [Option.some.inj h3]
    exact h1
  · obtain ⟨i, hi, ha, hg, hd⟩ := (hC c).schema hsp
    obtain ⟨s, hs1, hs2⟩ := R.schema hsp
    have hblank := hs hsp s hs1
    obtain ⟨n, hn, heq⟩ := hval i hi (by simp [hg, scalar, place])
    rw [ha, hd] at heq
    have hsh : ∀ s : Str, shown vb (Dflt.none.val : Val C F) (.str s) = .str s := by
      intro s; cases vb <;> simp [shown, Dflt.val, scalarEq, number, isNone]
    rw [← attr_eq, hs1, hsh] at heq
    rw [heq]
    by_cases h : n = .orEmpty
    · exact ⟨s, by simp [reread, h], hs2⟩
    · exact ⟨strip s, by simp [reread, h, hblank], hblank⟩

end Verif
