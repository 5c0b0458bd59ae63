import Verif.Lemmas.Rebuilt

/-!
# Objects made anew are regular and equal to the objects they are made from
-/

set_option linter.unusedSectionVars false
set_option linter.unusedSimpArgs false

namespace Verif
open Spec

variable {F : Type} [PyExt F] [PyClose F] [LawfulExt F] [LawfulClose F]

theorem everywhere_obj {Q : Cls → Str → NsMap → List (Str × Val Cls F) → Prop} {c : Cls} {ns : Str} {nss : NsMap}
    {attrs : List (Str × Val Cls F)} (h : Q c ns nss attrs) (ha : ∀ a v, (a, v) ∈ attrs → Everywhere Q v) :
    Everywhere Q (.obj c ns nss attrs) := by
  intro c' ns' nss' attrs' hi
  generalize hx : Val.obj c' ns' nss' attrs' = x at hi
  generalize hy : Val.obj c ns nss attrs = y at hi
  cases hi with
  | self => subst hy; cases hx; exact h
  | attr hm hi => cases hy; subst hx; exact ha _ _ hm _ _ _ _ hi
  | member _ _ => cases hy

theorem everywhere_list {Q : Cls → Str → NsMap → List (Str × Val Cls F) → Prop} {l : List (Val Cls F)}
    (h : ∀ v ∈ l, Everywhere Q v) : Everywhere Q (.list l) := by
  intro c' ns' nss' attrs' hi
  generalize hx : Val.obj c' ns' nss' attrs' = x at hi
  generalize hy : Val.list l = y at hi
  cases hi with
  | self => subst hx; cases hy
  | attr _ _ => cases hy
  | member hm hi => cases hy; subst hx; exact h _ hm _ _ _ _ hi

theorem everywhere_plain {Q : Cls → Str → NsMap → List (Str × Val Cls F) → Prop} {v : Val Cls F}
    (h1 : ∀ c ns nss as, v ≠ .obj c ns nss as) (h2 : ∀ l, v ≠ .list l) : Everywhere Q v := by
  intro c' ns' nss' attrs' hi
  generalize hx : Val.obj c' ns' nss' attrs' = x at hi
  cases hi with
  | self => exact absurd hx.symm (h1 _ _ _ _)
  | attr _ _ => exact absurd rfl (h1 _ _ _ _)
  | member _ _ => exact absurd rfl (h2 _)

/-! ## The objects made from geometries -/

set_option maxRecDepth 10000 in
theorem regular_coordsObj {l : List (Pt F)} (h : ∀ p ∈ l, p.length = 2 ∨ p.length = 3) : AllRegular (coordsObj l) := by
  have hl : l.all dim23 = true := by
    simp only [List.all_eq_true, dim23, decide_eq_true_eq]; exact h
  refine everywhere_obj ⟨?_, rfl, mergeNs_nodup _⟩ ?_
  · show (l.all dim23 && true && _) = true
    rw [hl]; rfl
  · intro a v hm
    simp only [List.mem_singleton, Prod.mk.injEq] at hm
    rw [hm.2]
    exact everywhere_plain (by intros; simp) (by intros; simp)

set_option maxRecDepth 10000 in
theorem regular_ringObj {l : List (Pt F)} (h : ∀ p ∈ l, p.length = 2 ∨ p.length = 3) : AllRegular (ringObj l) := by
  refine everywhere_obj ⟨rfl, rfl, mergeNs_nodup _⟩ ?_
  intro a v hm
  simp only [List.mem_cons, List.not_mem_nil, or_false, Prod.mk.injEq] at hm
  rcases hm with ⟨_, rfl⟩ | ⟨_, rfl⟩ | ⟨_, rfl⟩ | ⟨_, rfl⟩ | ⟨_, rfl⟩ | ⟨_, rfl⟩
  · exact regular_coordsObj h
  all_goals exact everywhere_plain (by intros; simp) (by intros; simp)

set_option maxRecDepth 10000 in
theorem regular_boundaryObj {c : Cls} (hc : c = .OuterBoundaryIs ∨ c = .InnerBoundaryIs)
    {l : List (Pt F)} (h : ∀ p ∈ l, p.length = 2 ∨ p.length = 3) : AllRegular (boundaryObj c l) := by
  refine everywhere_obj ⟨?_, ?_, mergeNs_nodup _⟩ ?_
  · rcases hc with rfl | rfl <;> rfl
  · rcases hc with rfl | rfl <;> rfl
  intro a v hm
  simp only [List.mem_singleton, Prod.mk.injEq] at hm
  rw [hm.2]
  exact regular_ringObj h

/-! ## Typing -/

theorem kindOk_rebuilt {P : Pt F → Bool} {it : Item Cls} {v : Val Cls F} (h : kindOk P it v = true) :
    kindOk P it (rebuilt v) = true := by
  have hi : ∀ cs : List (PyType Cls), ∀ w : Val Cls F, isInst cs (rebuilt w) = isInst cs w := by
    intro cs w
    cases w <;> simp only [rebuilt, isInst]
  simp only [kindOk] at h ⊢
  split <;> rename_i hg <;> simp only [hg] at h <;>
    (cases v <;> simp only [rebuilt] <;> simp only at h <;> first | exact h | skip)
  · rename_i l
    rw [rebuiltList_eq, List.all_map]
    simp only [Function.comp_def, hi]
    exact h

theorem geoItems {c : Cls} (hc : c ∈ geometryClasses) {it : Item Cls} (hit : it ∈ fastkml.itemsOf c) :
    it.attr ∉ ofGeometry c ∨ it.attr = s% "kml_coordinates" ∧ it.get = .xmlSub ∧ .cls .Coordinates ∈ it.classes ∧
      (c = .LineString ∨ c = .LinearRing) ∨
    it.attr = s% "outer_boundary" ∧ it.get = .xmlSub ∧ .cls .OuterBoundaryIs ∈ it.classes ∧ c = .Polygon ∨
    it.attr = s% "inner_boundaries" ∧ it.get = .xmlSubList ∧ .cls .InnerBoundaryIs ∈ it.classes ∧ c = .Polygon := by
  have : ∀ c ∈ geometryClasses, ∀ it ∈ fastkml.itemsOf c,
      it.attr ∉ ofGeometry c ∨ it.attr = s% "kml_coordinates" ∧ it.get = .xmlSub ∧ .cls .Coordinates ∈ it.classes ∧
        (c = .LineString ∨ c = .LinearRing) ∨
      it.attr = s% "outer_boundary" ∧ it.get = .xmlSub ∧ .cls .OuterBoundaryIs ∈ it.classes ∧ c = .Polygon ∨
      it.attr = s% "inner_boundaries" ∧ it.get = .xmlSubList ∧ .cls .InnerBoundaryIs ∈ it.classes ∧ c = .Polygon := by
    decide +kernel
  exact this c hc it hit

theorem ofGeometry_nil {c : Cls} (hc : c ∉ geometryClasses) : ofGeometry c = [] := by
  simp only [geometryClasses, List.mem_cons, List.not_mem_nil, or_false, not_or] at hc
  simp only [ofGeometry, hc.1, hc.2.1, hc.2.2, or_self, if_false]

theorem fromGeometry_id {c : Cls} (hc : c ∉ geometryClasses) (g : Option (Geo F)) (attrs : List (Str × Val Cls F)) :
    fromGeometry c g attrs = attrs := by
  simp only [geometryClasses, List.mem_cons, List.not_mem_nil, or_false, not_or] at hc
  simp only [fromGeometry, hc.1, hc.2.1, hc.2.2, or_self, if_false]

/-- The geometry of a line, ring or polygon. -/
inductive GeoCase : Cls → Option (Geo F) → Prop where
  | none {c} : GeoCase c none
  | line {l} : NormalLine l → GeoCase .LineString (some (.lineString l))
  | ring {l} : NormalRing l → GeoCase .LinearRing (some (.linearRing l))
  | polygon {s hs} : NormalRing s → (∀ h ∈ hs, NormalRing h) → GeoCase .Polygon (some (.polygon s hs))

theorem geo_cases {c : Cls} (hc : c ∈ geometryClasses) {ns : Str} {nss : NsMap} {attrs : List (Str × Val Cls F)}
    (hr : AllRegular (.obj c ns nss attrs)) (hn : NoNaN (.obj c ns nss attrs)) :
    ∃ g, geometry fastkml (.obj c ns nss attrs) = .ok g ∧ geometryOf (.obj c ns nss attrs) = g ∧ GeoCase c g := by
  simp only [geometryClasses, List.mem_cons, List.not_mem_nil, or_false] at hc
  rcases hc with rfl | rfl | rfl
  · rcases lineString_cases hr hn with h | ⟨l, hl, h⟩
    · exact ⟨_, h, by simp only [geometryOf, h], .none⟩
    · exact ⟨_, h, by simp only [geometryOf, h], .line hl⟩
  · rcases linearRing_cases hr hn with h | ⟨l, hl, h⟩
    · exact ⟨_, h, by simp only [geometryOf, h], .none⟩
    · exact ⟨_, h, by simp only [geometryOf, h], .ring hl⟩
  · rcases polygon_cases hr hn with h | ⟨s, hs, h1, h2, h⟩
    · exact ⟨_, h, by simp only [geometryOf, h], .none⟩
    · exact ⟨_, h, by simp only [geometryOf, h], .polygon h1 h2⟩

theorem GeoCase.coords {c : Cls} {g : Option (Geo F)} (h : GeoCase c g) :
    AllRegular (coordsArg g) ∧ (coordsArg g = .none ∨ ∃ l, coordsArg g = coordsObj l) := by
  have hnone : AllRegular (.none : Val Cls F) := everywhere_plain (by intros; simp) (by intros; simp)
  cases h with
  | none => exact ⟨hnone, Or.inl rfl⟩
  | line h => exact ⟨regular_coordsObj fun p hp => (h.points p hp).1, Or.inr ⟨_, rfl⟩⟩
  | ring h => exact ⟨regular_coordsObj fun p hp => (h.points p hp).1, Or.inr ⟨_, rfl⟩⟩
  | polygon _ _ => exact ⟨hnone, Or.inl rfl⟩

theorem GeoCase.outer {c : Cls} {g : Option (Geo F)} (h : GeoCase c g) :
    AllRegular (outerArg g) ∧ (outerArg g = .none ∨ ∃ l, outerArg g = boundaryObj .OuterBoundaryIs l) := by
  have hnone : AllRegular (.none : Val Cls F) := everywhere_plain (by intros; simp) (by intros; simp)
  cases h with
  | none => exact ⟨hnone, Or.inl rfl⟩
  | line h => exact ⟨hnone, Or.inl rfl⟩
  | ring h => exact ⟨hnone, Or.inl rfl⟩
  | polygon h _ => exact ⟨regular_boundaryObj (Or.inl rfl) fun p hp => (h.points p hp).1, Or.inr ⟨_, rfl⟩⟩

theorem GeoCase.inner {c : Cls} {g : Option (Geo F)} (h : GeoCase c g) :
    ∀ v ∈ innerArg g, AllRegular v ∧ ∃ l, v = boundaryObj .InnerBoundaryIs l := by
  cases h with
  | polygon _ hh =>
    intro v hv
    simp only [innerArg, List.mem_map] at hv
    obtain ⟨l, hl, rfl⟩ := hv
    exact ⟨regular_boundaryObj (Or.inr rfl) fun p hp => ((hh l hl).points p hp).1, _, rfl⟩
  | _ => intro v hv; cases hv

theorem mem_putAttr {a b : Str} {v w : Val Cls F} {attrs : List (Str × Val Cls F)}
    (h : (b, v) ∈ putAttr a w attrs) : b = a ∧ v = w ∨ (b, v) ∈ attrs := by
  simp only [putAttr, List.mem_map] at h
  obtain ⟨p, hp, he⟩ := h
  split at he
  · cases he; exact Or.inl ⟨rfl, rfl⟩
  · subst he; exact Or.inr hp

/-- The attributes of an object made anew. -/
theorem mem_rebuilt {c : Cls} {g : Option (Geo F)} {attrs : List (Str × Val Cls F)} {a : Str} {v : Val Cls F}
    (h : (a, v) ∈ fromGeometry c g (rebuiltAttrs attrs)) :
    (∃ w, (a, w) ∈ attrs ∧ v = rebuilt w) ∨ v = coordsArg g ∨ v = outerArg g ∨ v = .list (innerArg g) := by
  have key : (a, v) ∈ rebuiltAttrs attrs → ∃ w, (a, w) ∈ attrs ∧ v = rebuilt w := by
    rw [rebuiltAttrs_eq, List.mem_map]
    rintro ⟨⟨b, w⟩, hm, he⟩
    cases he
    exact ⟨w, hm, rfl⟩
  simp only [fromGeometry] at h
  split at h
  · rcases mem_putAttr h with ⟨_, h⟩ | h
    · exact Or.inr (Or.inl h)
    · exact Or.inl (key h)
  · split at h
    · rcases mem_putAttr h with ⟨_, h⟩ | h
      · exact Or.inr (Or.inr (Or.inl h))
      · rcases mem_putAttr h with ⟨_, h⟩ | h
        · exact Or.inr (Or.inr (Or.inr h))
        · exact Or.inl (key h)
    · exact Or.inl (key h)

theorem isInst_boundary {c : Cls} {l : List (Pt F)} {cs : List (PyType Cls)} (h : .cls c ∈ cs) :
    isInst cs (boundaryObj c l) = true := by simp [boundaryObj, isInst, h]

/-- An object made anew is regular. -/
theorem regular_rebuilt_obj {c : Cls} {ns : Str} {nss : NsMap} {attrs : List (Str × Val Cls F)}
    (hr : AllRegular (.obj c ns nss attrs)) (hn : NoNaN (.obj c ns nss attrs)) :
    Regular c ns nss (fromGeometry c (geometryOf (.obj c ns nss attrs)) (rebuiltAttrs attrs)) := by
  have hreg := hr _ _ _ _ .self
  have ht := hreg.typed
  simp only [objOk, Bool.and_eq_true, List.all_eq_true, Bool.or_eq_true, decide_eq_true_eq] at ht
  refine ⟨?_, by rw [keys_rebuilt]; exact hreg.layout, hreg.nss⟩
  simp only [objOk, Bool.and_eq_true, List.all_eq_true, Bool.or_eq_true, decide_eq_true_eq]
  constructor
  · intro it hit
    by_cases hof : it.attr ∈ ofGeometry c
    · have hc : c ∈ geometryClasses := by
        by_cases hc : c ∈ geometryClasses
        · exact hc
        · rw [ofGeometry_nil hc] at hof; cases hof
      obtain ⟨g, _, hg, hcase⟩ := geo_cases hc hr hn
      rw [hg]
      have hname : it.attr ∈ (rebuiltAttrs attrs).map Prod.fst := by
        apply mem_names hreg
        have : ∀ c ∈ geometryClasses, ∀ a ∈ ofGeometry c, a ∈ names c := by decide +kernel
        exact this c hc _ hof
      rcases geoItems hc hit with h | ⟨ha, hget, hcl, hcc⟩ | ⟨ha, hget, hcl, hcc⟩ | ⟨ha, hget, hcl, hcc⟩
      · exact absurd hof h
      · rw [ha] at hname ⊢
        rw [attr_coords hcc hname]
        rcases hcase.coords.2 with h | ⟨l, h⟩ <;> rw [h] <;> simp only [kindOk, hget]
        simp [coordsObj, isInst, hcl]
      · subst hcc
        rw [ha] at hname ⊢
        rw [attr_outer hname]
        rcases hcase.outer.2 with h | ⟨l, h⟩ <;> rw [h] <;> simp only [kindOk, hget]
        simp [boundaryObj, isInst, hcl]
      · subst hcc
        rw [ha] at hname ⊢
        rw [attr_inner hname]
        simp only [kindOk, hget, List.all_eq_true]
        intro v hv
        obtain ⟨_, l, rfl⟩ := hcase.inner v hv
        exact isInst_boundary hcl
    · rw [attr_fromGeometry hof, attr_rebuilt]
      exact kindOk_rebuilt (ht.1 it hit)
  · rcases ht.2 with h | h
    · exact Or.inl h
    · right
      have hti : s% "track_items" ∉ ofGeometry c := by
        have : ∀ c ∈ Cls.all, s% "track_items" ∉ ofGeometry c := by decide +kernel
        exact this c (Cls.mem_all c)
      simp only [trackOk] at h ⊢
      rw [attr_fromGeometry hti, attr_rebuilt]
      cases hv : attr (s% "track_items") attrs <;> rw [hv] at h <;> simp only [rebuilt] <;> first | exact h | cases h

/-- Induction on the members of lists and the attributes of objects. -/
theorem Val.deepInd {P : Val Cls F → Prop}
    (hobj : ∀ c ns nss attrs, (∀ a v, (a, v) ∈ attrs → P v) → P (.obj c ns nss attrs))
    (hlist : ∀ l, (∀ v ∈ l, P v) → P (.list l))
    (hother : ∀ v, (∀ c ns nss attrs, v ≠ .obj c ns nss attrs) → (∀ l, v ≠ .list l) → P v) (v : Val Cls F) : P v := by
  have : ∀ n (v : Val Cls F), v.depth = n → P v := by
    intro n
    induction n using Nat.strongRecOn with
    | ind n ih =>
      intro v hd
      cases v with
      | obj c ns nss attrs =>
        refine hobj c ns nss attrs fun a v hm => ih v.depth ?_ v rfl
        have := depthAttrs_mem hm
        simp only [Val.depth] at hd
        omega
      | list l =>
        refine hlist l fun v hm => ih v.depth ?_ v rfl
        have := depthList_mem hm
        simp only [Val.depth] at hd
        omega
      | _ => exact hother _ (by intros; simp) (by intros; simp)
  exact this _ v rfl

theorem regular_rebuilt (v : Val Cls F) : AllRegular v → NoNaN v → AllRegular (rebuilt v) := by
  induction v using Val.deepInd with
  | hother v hv hl =>
    intro _ _
    cases v <;> first | exact absurd rfl (hv _ _ _ _) | exact absurd rfl (hl _) |
      (simp only [rebuilt]; exact everywhere_plain (by intros; simp) (by intros; simp))
  | hlist l ih =>
    intro hr hn
    simp only [rebuilt, rebuiltList_eq]
    refine everywhere_list fun x hx => ?_
    obtain ⟨y, hy, rfl⟩ := List.mem_map.mp hx
    exact ih y hy (hr.member hy) (hn.member hy)
  | hobj c ns nss attrs ih =>
    intro hr hn
    simp only [rebuilt]
    refine everywhere_obj (regular_rebuilt_obj hr hn) ?_
    intro a v hm
    have key : ∀ w, (a, w) ∈ attrs → AllRegular (rebuilt w) := fun w hw => ih a w hw (hr.attr hw) (hn.attr hw)
    by_cases hc : c ∈ geometryClasses
    · obtain ⟨g, _, hg, hcase⟩ := geo_cases hc hr hn
      rw [hg] at hm
      rcases mem_rebuilt hm with ⟨w, hw, rfl⟩ | rfl | rfl | rfl
      · exact key w hw
      · exact hcase.coords.1
      · exact hcase.outer.1
      · exact everywhere_list fun v hv => (hcase.inner v hv).1
    · rw [fromGeometry_id hc, rebuiltAttrs_eq, List.mem_map] at hm
      obtain ⟨⟨b, w⟩, hw, he⟩ := hm
      cases he
      exact key w hw

/-! ## Equality -/

theorem sameGeometry_self {v w : Val Cls F} {g : Option (Geo F)} (h1 : geometry fastkml v = .ok g)
    (h2 : geometry fastkml w = .ok g) (hf : ∀ k, g = some k → Fine k) : SameGeometry v w := by
  cases g with
  | none => exact Or.inl ⟨h1, h2⟩
  | some g =>
    have := geoEq_iff.mp (geoEq_refl (hf g rfl))
    exact Or.inr ⟨g, g, h1, h2, this.1, this.2.1, this.2.2⟩

theorem eq_rebuilt (v : Val Cls F) : AllRegular v → NoNaN v → pyEq (rebuilt v) v = .ok true := by
  induction v using Val.deepInd with
  | hother v hv hl =>
    intro _ hn
    have : rebuilt v = v := by
      cases v <;> first | exact absurd rfl (hv _ _ _ _) | exact absurd rfl (hl _) | simp only [rebuilt]
    rw [this, pyEq_plain hv hl, plainEq_refl (hn v .self) hv hl]
  | hlist l ih =>
    intro hr hn
    simp only [rebuilt, rebuiltList_eq]
    rw [pyEq_eq]
    simp only [eqStep, listEq, List.length_map, ne_eq, not_true_eq_false, if_false, allE_true, List.mem_map]
    rintro r ⟨⟨a, b⟩, hp, rfl⟩
    have : ∀ l : List (Val Cls F), (a, b) ∈ (l.map rebuilt).zip l → a = rebuilt b ∧ b ∈ l := by
      intro l
      induction l with
      | nil => intro h; cases h
      | cons x l ihl =>
        intro h
        simp only [List.map_cons, List.zip_cons_cons, List.mem_cons, Prod.mk.injEq] at h
        rcases h with ⟨h1, h2⟩ | h
        · exact ⟨by rw [h1, h2], by simp [h2]⟩
        · exact ⟨(ihl h).1, by simp [(ihl h).2]⟩
    obtain ⟨rfl, hm⟩ := this l hp
    exact ih b hm (hr.member hm) (hn.member hm)
  | hobj c ns nss attrs ih =>
    intro hr hn
    have hreg := hr _ _ _ _ .self
    have hreg' := regular_rebuilt_obj hr hn
    have hx : Inst.Reg ⟨c, ns, nss, attrs⟩ := hreg
    have hat : ∀ a ∈ names c, a ∉ ofGeometry c → pyEq (attr a (fromGeometry c (geometryOf (.obj c ns nss attrs))
        (rebuiltAttrs attrs))) (attr a attrs) = .ok true := by
      intro a ha hof
      rw [attr_fromGeometry hof, attr_rebuilt]
      have hm : (a, attr a attrs) ∈ attrs := hx.mem ha
      exact ih a _ hm (hr.attr hm) (hn.attr hm)
    have hinfo := info_rebuilt _ hr hn
    simp only [rebuilt] at hinfo ⊢
    rw [pyEq_eq]
    simp only [eqStep, instEq, ne_eq, not_true_eq_false, false_and, if_false]
    cases hrule : eqRule c with
    | default =>
      have hof : ofGeometry c = [] := by
        have : ∀ c ∈ Cls.all, eqRule c = .default → ofGeometry c = [] := by decide +kernel
        exact this c (Cls.mem_all c) hrule
      simp only [methodEq, hrule, if_true]
      refine (dictEq_reg pyEq (x := ⟨c, ns, nss, _⟩) (y := ⟨c, ns, nss, attrs⟩) hreg' hreg rfl).mpr
        ⟨rfl, fun _ => rfl, fun a ha => hat a ha (by rw [hof]; simp)⟩
    | fields e fs =>
      obtain ⟨hm, hgn, hgf, hnm⟩ := rule_facts hrule
      refine (fields_reg pyEq (x := ⟨c, ns, nss, _⟩) (y := ⟨c, ns, nss, attrs⟩) hreg' hreg hrule hm).mpr
        ⟨fun a ha => hat a (hnm c hm a ha) ?_, ?_, rfl, fun _ => rfl⟩
      · have : ∀ c ∈ Cls.all, (match eqRule c with
            | .default => true
            | .fields _ fs => decide (∀ a ∈ fs ++ [s% "id", s% "target_id"], a ∉ ofGeometry c)) = true := by
          decide +kernel
        have := this c (Cls.mem_all c)
        rw [hrule] at this
        exact of_decide_eq_true this a ha
      · obtain ⟨g, hg⟩ := geometry_total (x := ⟨c, ns, nss, attrs⟩) hr hrule
        have hg : geometry fastkml (.obj c ns nss attrs) = .ok g := hg
        have hg' : geometry fastkml (.obj c ns nss (fromGeometry c (geometryOf (.obj c ns nss attrs))
            (rebuiltAttrs attrs))) = .ok g := by
          simp only [geometry, hinfo]; exact hg
        rw [geometryEq_iff]
        refine sameGeometry_self hg' hg ?_
        rintro k rfl
        exact (geometry_fine _ hr.typed hn c ns nss attrs rfl hgn (rule_kind hrule) hgf k hg).1

end Verif
