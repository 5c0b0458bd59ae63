import Verif.Lemmas.ReprEval

/-!
# Printing objects with further keyword arguments
-/

set_option linter.unusedSectionVars false
set_option linter.unusedSimpArgs false

namespace Verif
open Spec

variable {F : Type} [PyExt F] [PyClose F] [LawfulExt F] [LawfulClose F]

/-- The parameters of a constructor that are stored. -/
def knownArgs (c : Cls) : List Str := specialArgs (fastkml.info c).special ++ (fastkml.info c).slots.map Prod.fst

theorem dget_skip {β : Type} {a : Str} {d e : List (Str × β)} (h : a ∉ d.map Prod.fst) : dget a (d ++ e) = dget a e := by
  rw [dget_append, (dget_eq_none ..).mpr h]; rfl

theorem dget_skip_right {β : Type} {a : Str} {d e : List (Str × β)} (h : a ∉ e.map Prod.fst) :
    dget a (d ++ e) = dget a d := by
  rw [dget_append, (dget_eq_none (d := e) ..).mpr h]; simp

/-! ## The geometry -/

/-- The attributes that `geometry` uses. -/
def geomNames : GeomKind → List Str
  | .none => []
  | .point | .lineString | .linearRing => [s% "kml_coordinates"]
  | .boundary | .placemark => [s% "kml_geometry"]
  | .polygon => [s% "outer_boundary", s% "inner_boundaries"]
  | .multi => [s% "kml_geometries"]
  | .track => [s% "track_items"]
  | .multiTrack => [s% "tracks"]
  | .location => [s% "longitude", s% "latitude", s% "altitude"]
  | .model => [s% "location"]

/-- The attributes that `__bool__` uses. -/
def boolNames : BoolRule → List Str
  | .allTruthy as | .anyTruthy as | .allNotNone as | .anyNotNone as => as
  | .anyElem a => [a]
  | .always | .geometry => []

theorem geomStep_names {k : GeomKind} {as bs : List (Str × View Cls F)}
    (h : ∀ a ∈ geomNames k, viewOf a as = viewOf a bs) : geomStep k as = geomStep k bs := by
  cases k <;> simp only [geomNames, List.forall_mem_cons, List.not_mem_nil, false_implies, implies_true, and_true] at h <;>
    simp only [geomStep, h]

theorem boolStep_names {r : BoolRule} {as bs : List (Str × View Cls F)} {g : Except Err (Option (Geo F))}
    (h : ∀ a ∈ boolNames r, viewOf a as = viewOf a bs) : boolStep r as g = boolStep r bs g := by
  cases r with
  | always => rfl
  | geometry => rfl
  | allTruthy l =>
    simp only [boolStep]; congr 1
    exact List.map_congr_left fun a ha => by rw [h a ha]
  | anyTruthy l =>
    simp only [boolStep]; congr 1
    exact List.map_congr_left fun a ha => by rw [h a ha]
  | allNotNone l =>
    simp only [boolStep, Except.ok.injEq]
    rw [Bool.eq_iff_iff]
    simp only [List.all_eq_true]
    exact ⟨fun q a ha => by rw [← h a ha]; exact q a ha, fun q a ha => by rw [h a ha]; exact q a ha⟩
  | anyNotNone l =>
    simp only [boolStep, Except.ok.injEq]
    rw [Bool.eq_iff_iff]
    simp only [List.any_eq_true]
    exact ⟨fun ⟨a, ha, q⟩ => ⟨a, ha, by rw [← h a ha]; exact q⟩, fun ⟨a, ha, q⟩ => ⟨a, ha, by rw [h a ha]; exact q⟩⟩
  | anyElem a => simp only [boolStep, h a (by simp [boolNames])]

theorem info_names (c : Cls) : ∀ a ∈ geomNames (fastkml.info c).geom ++ boolNames (fastkml.info c).bool, a ∈ knownArgs c := by
  have : ∀ c ∈ Cls.all, ∀ a ∈ geomNames (fastkml.info c).geom ++ boolNames (fastkml.info c).bool, a ∈ knownArgs c := by
    decide +kernel
  exact this c (Cls.mem_all c)

/-- Further attributes change neither the geometry nor the truth value. -/
theorem info_extras {c : Cls} {ns : Str} {nss : NsMap} {ex attrs : List (Str × Val Cls F)}
    (hex : ∀ a ∈ ex.map Prod.fst, a ∉ knownArgs c) :
    info fastkml (.obj c ns nss (ex ++ attrs)) = info fastkml (.obj c ns nss attrs) := by
  have hv : ∀ a ∈ geomNames (fastkml.info c).geom ++ boolNames (fastkml.info c).bool,
      viewOf a (infoAttrs fastkml (ex ++ attrs)) = viewOf a (infoAttrs fastkml attrs) := by
    intro a ha
    have h1 : a ∉ ex.map Prod.fst := fun h => hex a h (info_names c a ha)
    simp only [viewOf, infoAttrs_eq, List.map_append]
    rw [dget_skip]
    simpa [List.map_map, Function.comp_def] using h1
  simp only [info, infoStep]
  rw [geomStep_names fun a ha => hv a (List.mem_append_left _ ha),
    boolStep_names fun a ha => hv a (List.mem_append_right _ ha)]

/-! ## The constructor -/

theorem fillSlots_congr {kw kw' : List (Str × Val Cls F)} {l : List (Str × Norm)}
    (h : ∀ a ∈ l.map Prod.fst, kwGet a kw = kwGet a kw') : fillSlots fastkml kw l = fillSlots fastkml kw' l := by
  induction l with
  | nil => rfl
  | cons p l ih =>
    obtain ⟨a, n⟩ := p
    simp only [fillSlots, h a (by simp), ih fun a ha => h a (by simp_all)]

theorem specialInit_congr {c : Cls} {kw kw' : List (Str × Val Cls F)}
    (h : ∀ a ∈ knownArgs c, kwGet a kw = kwGet a kw') :
    specialInit fastkml (fastkml.info c).special kw = specialInit fastkml (fastkml.info c).special kw' := by
  have key : ∀ c ∈ Cls.all, ((fastkml.info c).special = .schema → s% "id" ∈ knownArgs c) ∧
      ((fastkml.info c).special = .placemark → s% "kml_geometry" ∈ knownArgs c) := by decide +kernel
  obtain ⟨h1, h2⟩ := key c (Cls.mem_all c)
  cases hs : (fastkml.info c).special with
  | none => rfl
  | kml => rfl
  | schema => simp only [specialInit, h _ (h1 hs)]
  | placemark => simp only [specialInit, h _ (h2 hs)]
  | track =>
    have : ∀ a ∈ [s% "track_items", s% "whens", s% "coords", s% "angles"], kwGet a kw = kwGet a kw' := by
      intro a ha
      refine h a ?_
      simp only [knownArgs, hs, specialArgs]
      exact List.mem_append_left _ ha
    simp only [List.forall_mem_cons, List.not_mem_nil, false_implies, implies_true, and_true] at this
    obtain ⟨t1, t2, t3, t4⟩ := this
    simp only [specialInit, trackItems, t1, t2, t3, t4]

/-- The unknown arguments of a call. -/
def unknownArgs (c : Cls) (kw : List (Str × Val Cls F)) : List (Str × Val Cls F) :=
  kw.filter fun p => decide (p.1 ∉ knownArgs c)

theorem init_extras {c : Cls} {ns : Option Str} {nss : NsMap} {kw kw' ex : List (Str × Val Cls F)} {v : Val Cls F}
    (hk : (fastkml.info c).kwargs = true) (h1 : unknownArgs c kw = []) (h2 : unknownArgs c kw' = ex)
    (h : ∀ a ∈ knownArgs c, kwGet a kw' = kwGet a kw) (hv : init fastkml c ns nss kw = .ok v) :
    ∃ ns' nss' attrs, v = .obj c ns' nss' attrs ∧ init fastkml c ns nss kw' = .ok (.obj c ns' nss' (ex ++ attrs)) := by
  have h1 : kw.filter (fun p => decide (p.1 ∉ specialArgs (fastkml.info c).special ++
      (fastkml.info c).slots.map Prod.fst)) = [] := h1
  have h2 : kw'.filter (fun p => decide (p.1 ∉ specialArgs (fastkml.info c).special ++
      (fastkml.info c).slots.map Prod.fst)) = ex := h2
  simp only [init, construct, h1, ne_eq, not_true_eq_false, false_and, if_false] at hv
  simp only [init, construct, h2, hk, reduceCtorEq, and_false, if_false, specialInit_congr (c := c) h,
    fillSlots_congr (l := (fastkml.info c).slots) fun a ha => h a (List.mem_append_right _ ha)]
  cases hs : specialInit fastkml (fastkml.info c).special kw with
  | error e => simp only [hs] at hv; cases hv
  | ok sp =>
    cases hf : fillSlots fastkml kw (fastkml.info c).slots with
    | error e => simp only [hs, hf] at hv; cases hv
    | ok sl =>
      simp only [hs, hf, Except.ok.injEq] at hv
      subst hv
      exact ⟨_, _, _, rfl, by simp only [List.nil_append, List.append_assoc]⟩

theorem unknownArgs_dset {c : Cls} {a : Str} {w : Val Cls F} {kw : List (Str × Val Cls F)} (ha : a ∈ knownArgs c) :
    unknownArgs c (dset a w kw) = unknownArgs c kw := by
  induction kw with
  | nil => simp [unknownArgs, dset, ha]
  | cons p kw ih =>
    obtain ⟨b, x⟩ := p
    simp only [dset]
    by_cases hb : b = a
    · subst hb
      simp [unknownArgs, ha]
    · rw [if_neg hb]
      simp only [unknownArgs, List.filter_cons] at ih ⊢
      rw [ih]

/-! ## Calls -/

theorem otherArgs_append {as : List (Str × PVal F)} {kw ex : List (Str × Val Cls F)} (h : otherArgs as = .ok kw)
    (hex : s% "geometry" ∉ ex.map Prod.fst) :
    otherArgs (as ++ ex.map fun p => (p.1, .val p.2)) = .ok (kw ++ ex) := by
  induction as generalizing kw with
  | nil =>
    simp only [otherArgs, Except.ok.injEq] at h
    subst h
    simp only [List.nil_append]
    induction ex with
    | nil => rfl
    | cons p ex ih =>
      obtain ⟨a, v⟩ := p
      simp only [List.map_cons, List.mem_cons, not_or] at hex
      simp only [List.map_cons, otherArgs, ih hex.2]
      rw [if_neg (fun h => hex.1 h.symm)]
  | cons p as ih =>
    obtain ⟨a, x⟩ := p
    simp only [otherArgs] at h
    simp only [List.cons_append, otherArgs]
    cases ho : otherArgs as with
    | error e => simp only [ho] at h; cases h
    | ok kw' =>
      simp only [ho] at h
      simp only [ih ho]
      by_cases hg : a = s% "geometry"
      · rw [if_pos hg] at h ⊢
        simp only [Except.ok.injEq] at h
        rw [h]
      · rw [if_neg hg] at h ⊢
        cases x with
        | geo g => cases h
        | val v =>
          simp only [Except.ok.injEq] at h
          rw [← h]
          rfl

theorem geometryArg_append {as : List (Str × PVal F)} {ex : List (Str × Val Cls F)}
    (hex : s% "geometry" ∉ ex.map Prod.fst) :
    geometryArg (as ++ ex.map fun p => (p.1, .val p.2)) = geometryArg as := by
  simp only [geometryArg]
  rw [dget_skip_right]
  simpa [List.map_map, Function.comp_def] using hex

theorem kwGet_append {kw ex : List (Str × Val Cls F)} {a : Str} (h : a ∉ ex.map Prod.fst) :
    kwGet a (kw ++ ex) = kwGet a kw := by
  simp only [kwGet, dget_skip_right h]

theorem unknown_append {c : Cls} {kw ex : List (Str × Val Cls F)} (h : ∀ a ∈ kw.map Prod.fst, a ∈ knownArgs c)
    (hex : ∀ a ∈ ex.map Prod.fst, a ∉ knownArgs c) : unknownArgs c kw = [] ∧ unknownArgs c (kw ++ ex) = ex := by
  have h1 : unknownArgs c kw = [] := by
    simp only [unknownArgs, List.filter_eq_nil_iff, decide_eq_true_eq, Classical.not_not]
    exact fun p hp => h p.1 (List.mem_map_of_mem hp)
  refine ⟨h1, ?_⟩
  simp only [unknownArgs, List.filter_append] at h1 ⊢
  rw [h1, List.nil_append, List.filter_eq_self]
  intro p hp
  simpa using hex p.1 (List.mem_map_of_mem hp)

theorem callCls_extras {c : Cls} {ns : Str} {nss : NsMap} {as : List (Str × PVal F)} {kw ex : List (Str × Val Cls F)}
    {v : Val Cls F} (hk : (fastkml.info c).kwargs = true)
    (hex : ∀ a ∈ ex.map Prod.fst, a ∉ knownArgs c ∧ a ≠ s% "geometry")
    (ho : otherArgs as = .ok kw) (hkw : ∀ a ∈ kw.map Prod.fst, a ∈ knownArgs c)
    (hg : geometryArg as = .ok none ∨ c ∈ geometryClasses)
    (h : callCls c ns nss as = .ok v) :
    ∃ ns' nss' attrs, v = .obj c ns' nss' attrs ∧
      callCls c ns nss (as ++ ex.map fun p => (p.1, .val p.2)) = .ok (.obj c ns' nss' (ex ++ attrs)) := by
  have hge : s% "geometry" ∉ ex.map Prod.fst := fun h => (hex _ h).2 rfl
  have hx : ∀ a ∈ ex.map Prod.fst, a ∉ knownArgs c := fun a ha => (hex a ha).1
  obtain ⟨hu1, hu2⟩ := unknown_append hkw hx
  have hget : ∀ a ∈ knownArgs c, kwGet a (kw ++ ex) = kwGet a kw := fun a ha =>
    kwGet_append fun h => hx a h ha
  have hd : ∀ {kw kw' : List (Str × Val Cls F)} {b : Str} {w : Val Cls F},
      (∀ a ∈ knownArgs c, kwGet a kw' = kwGet a kw) →
      ∀ a ∈ knownArgs c, kwGet a (dset b w kw') = kwGet a (dset b w kw) := by
    intro kw kw' b w h a ha
    rw [kwGet_dset, kwGet_dset, h a ha]
  simp only [callCls, geometryArg_append hge, otherArgs_append ho hge]
  simp only [callCls, ho] at h
  cases hga : geometryArg as with
  | error e => simp only [hga] at h; cases h
  | ok g =>
    simp only [hga] at h
    cases g with
    | none => exact init_extras hk hu1 hu2 hget h
    | some g =>
      have hc : c ∈ geometryClasses := by
        rcases hg with hg | hg
        · rw [hga] at hg; cases hg
        · exact hg
      simp only [geometryClasses, List.mem_cons, List.not_mem_nil, or_false] at hc
      have hline : (c = .LineString ∨ c = .LinearRing) → s% "kml_coordinates" ∈ knownArgs c := by
        rintro (rfl | rfl) <;> decide +kernel
      by_cases hl : c = .LineString ∨ c = .LinearRing
      · have h3 : c = .Point ∨ c = .LineString ∨ c = .LinearRing := .inr hl
        have h4 : c ≠ .Point := by rintro rfl; simp at hl
        simp only at h ⊢
        rw [if_pos h3] at h ⊢
        simp only [initCoords, h4, if_false] at h ⊢
        rw [hget _ (hline hl)]
        by_cases hn : (kwGet (s% "kml_coordinates") kw).notNone = true
        · simp only [hn, if_true] at h; cases h
        · simp only [hn, Bool.false_eq_true, if_false] at h ⊢
          by_cases he : g.nonEmpty = true
          · simp only [he, if_true] at h ⊢
            cases hnc : newCoordinates g with
            | error e => simp only [hnc] at h; cases h
            | ok k =>
              simp only [hnc] at h ⊢
              exact init_extras hk (by rw [unknownArgs_dset (hline hl)]; exact hu1)
                (by rw [unknownArgs_dset (hline hl)]; exact hu2) (hd hget) h
          · simp only [he, Bool.false_eq_true, if_false] at h ⊢
            exact init_extras hk hu1 hu2 hget h
      · have hp : c = .Polygon := by rcases hc with hc | hc | hc <;> simp_all
        subst hp
        have hob : s% "outer_boundary" ∈ knownArgs .Polygon := by decide +kernel
        have hib : s% "inner_boundaries" ∈ knownArgs .Polygon := by decide +kernel
        simp only [reduceCtorEq, or_self, if_false, if_true, initPolygon] at h ⊢
        rw [hget _ hob]
        by_cases hn : (kwGet (s% "outer_boundary") kw).notNone = true
        · simp only [hn, if_true] at h; cases h
        · simp only [hn, Bool.false_eq_true, if_false] at h ⊢
          cases g with
          | polygon s hs =>
            simp only at h ⊢
            cases h1 : initBoundary .OuterBoundaryIs none [] (some (.linearRing s)) ([] : List (Str × Val Cls F)) with
            | error e => simp only [h1] at h; cases h
            | ok o =>
              simp only [h1] at h ⊢
              cases h2 : seqE (hs.map fun h => initBoundary .InnerBoundaryIs none [] (some (.linearRing h))
                  ([] : List (Str × Val Cls F))) with
              | error e => simp only [h2] at h; cases h
              | ok is =>
                simp only [h2] at h ⊢
                exact init_extras hk (by rw [unknownArgs_dset hib, unknownArgs_dset hob]; exact hu1)
                  (by rw [unknownArgs_dset hib, unknownArgs_dset hob]; exact hu2) (hd (hd hget)) h
          | _ => cases h

/-! ## Printing -/

theorem evalArgs_append {as bs : List (Str × PExpr F)} {xs ys : List (Str × PVal F)} (h1 : evalArgs as = .ok xs)
    (h2 : evalArgs bs = .ok ys) : evalArgs (as ++ bs) = .ok (xs ++ ys) := by
  induction as generalizing xs with
  | nil =>
    simp only [evalArgs, Except.ok.injEq] at h1
    subst h1
    exact h2
  | cons p as ih =>
    obtain ⟨k, e⟩ := p
    simp only [evalArgs] at h1
    simp only [List.cons_append, evalArgs]
    cases he : evalP e with
    | error e => simp only [he] at h1; cases h1
    | ok x =>
      cases ha : evalArgs as with
      | error e => simp only [he, ha] at h1; cases h1
      | ok r =>
        simp only [he, ha, Except.ok.injEq] at h1
        subst h1
        simp only [ih ha, List.cons_append]

theorem reprArg_extras {c : Cls} {ns : Str} {nss : NsMap} {ex attrs : List (Str × Val Cls F)}
    (hex : ∀ a ∈ ex.map Prod.fst, a ∉ knownArgs c) (hc : c ∉ abstractClasses) {f : Str × Str × Conv}
    (hf : f ∈ reprFields c) :
    reprArg (.obj c ns nss (ex ++ attrs)) (ex ++ attrs) (reprAttrs (ex ++ attrs)) f.2.1 f.2.2 =
      reprArg (.obj c ns nss attrs) attrs (reprAttrs attrs) f.2.1 f.2.2 := by
  have hk := repr_keys hf
  rw [← hk]
  rcases repr_names hc hf with ⟨h1, h2⟩ | ⟨h1, h2, h3⟩
  · simp only [reprArg, h1, if_true, geometry, info_extras hex]
  · have h4 : f.1 ∉ ex.map Prod.fst := fun h => hex _ h (names_known h2)
    simp only [reprArg, if_neg h1, reprAttrs_eq, List.map_append]
    rw [dget_skip h4, dget_skip (by simpa [List.map_map, Function.comp_def] using h4)]

theorem splat_extras {c : Cls} {ns : Str} {nss : NsMap} {ex attrs : List (Str × Val Cls F)}
    (hex : ∀ a ∈ ex.map Prod.fst, a ∉ knownArgs c) (hn : (ex.map Prod.fst).Nodup)
    (hR : Inst.Reg ⟨c, ns, nss, attrs⟩) :
    Inst.splat ⟨c, ns, nss, ex ++ attrs⟩ = (ex.filter fun p => p.2.notNone).map Prod.fst := by
  have h0 := hR.extra
  simp only [Inst.extraKeys] at h0
  simp only [Inst.splat, Inst.extraKeys, List.map_append, List.filter_append, h0, List.append_nil]
  have h1 : (ex.map Prod.fst).filter (fun a => decide (a ∉ specialArgs (fastkml.info c).special ++
      (fastkml.info c).slots.map Prod.fst)) = ex.map Prod.fst := by
    rw [List.filter_eq_self]
    intro a ha
    exact decide_eq_true (hex a ha)
  rw [h1, List.filter_map]
  congr 1
  apply List.filter_congr
  rintro ⟨a, v⟩ hp
  have h2 : dget a ex = some v := dget_of_mem hn hp
  simp only [Function.comp_apply, dget_append, h2, Option.some_or]

theorem prints_of {v : Val Cls F} (h : (∀ e x, v ≠ .enum e x) ∧
    ∀ l, v = .list l → ∀ w ∈ l, ∃ c ns nss attrs, w = .obj c ns nss attrs) : Prints v := by
  cases v with
  | enum e x => exact absurd rfl (h.1 e x)
  | list l => exact h.2 l rfl
  | _ => trivial

theorem seqE_keys {α β : Type} {l : List (Str × α)} {R : Str × α → Except Err β} {as : List (Str × β)}
    (h : seqE (l.map fun f => withKey f.1 (R f)) = .ok as) : as.map Prod.fst = l.map Prod.fst := by
  induction l generalizing as with
  | nil => simp only [List.map_nil, seqE, Except.ok.injEq] at h; subst h; rfl
  | cons f l ih =>
    simp only [List.map_cons, seqE] at h
    cases hr : R f with
    | error e =>
      have hw : withKey f.1 (R f) = .error e := by rw [hr]; rfl
      simp only [hw] at h; cases h
    | ok x =>
      have hw : withKey f.1 (R f) = .ok (f.1, x) := by rw [hr]; rfl
      simp only [hw] at h
      cases hs : seqE (l.map fun f => withKey f.1 (R f)) with
      | error e => simp only [hs] at h; cases h
      | ok bs =>
        simp only [hs, Except.ok.injEq] at h
        subst h
        simp only [List.map_cons, ih hs]

theorem evalArgs_keys {as : List (Str × PExpr F)} {xs : List (Str × PVal F)} (h : evalArgs as = .ok xs) :
    xs.map Prod.fst = as.map Prod.fst := by
  induction as generalizing xs with
  | nil => simp only [evalArgs, Except.ok.injEq] at h; subst h; rfl
  | cons p as ih =>
    obtain ⟨k, e⟩ := p
    simp only [evalArgs] at h
    cases he : evalP e with
    | error e => simp only [he] at h; cases h
    | ok x =>
      cases ha : evalArgs as with
      | error e => simp only [he, ha] at h; cases h
      | ok r =>
        simp only [he, ha, Except.ok.injEq] at h
        subst h
        simp only [List.map_cons, ih ha]

theorem otherArgs_keys {xs : List (Str × PVal F)} {kw : List (Str × Val Cls F)} (h : otherArgs xs = .ok kw) :
    ∀ a ∈ kw.map Prod.fst, a ∈ xs.map Prod.fst ∧ a ≠ s% "geometry" := by
  induction xs generalizing kw with
  | nil => simp only [otherArgs, Except.ok.injEq] at h; subst h; intro a ha; cases ha
  | cons p xs ih =>
    obtain ⟨k, x⟩ := p
    simp only [otherArgs] at h
    cases ho : otherArgs xs with
    | error e => simp only [ho] at h; cases h
    | ok kw' =>
      simp only [ho] at h
      by_cases hg : k = s% "geometry"
      · rw [if_pos hg] at h
        simp only [Except.ok.injEq] at h
        subst h
        exact fun a ha => ⟨List.mem_cons_of_mem _ (ih ho a ha).1, (ih ho a ha).2⟩
      · rw [if_neg hg] at h
        cases x with
        | geo g => cases h
        | val v =>
          simp only [Except.ok.injEq] at h
          subst h
          intro a ha
          simp only [List.map_cons, List.mem_cons] at ha ⊢
          rcases ha with rfl | ha
          · exact ⟨.inl rfl, hg⟩
          · exact ⟨.inr (ih ho a ha).1, (ih ho a ha).2⟩

theorem eval_splat {l : List (Str × Val Cls F)} {rs : List (Str × Except Err (PExpr F))}
    (hr : ∀ p ∈ l, dget p.1 rs = some (reprOf p.2))
    (h : ∀ p ∈ l, ∃ e, reprOf p.2 = .ok e ∧ evalP e = .ok (.val (rebuilt p.2))) :
    ∃ es, seqE ((l.map Prod.fst).map fun k => withKey k ((dget k rs).getD (.error .illTyped))) = .ok es ∧
      evalArgs es = .ok ((l.map fun p => (p.1, rebuilt p.2)).map fun p => (p.1, .val p.2)) := by
  induction l with
  | nil => exact ⟨[], rfl, rfl⟩
  | cons p l ih =>
    obtain ⟨e, h1, h2⟩ := h p (by simp)
    obtain ⟨es, h3, h4⟩ := ih (fun q hq => hr q (by simp [hq])) fun q hq => h q (by simp [hq])
    refine ⟨(p.1, e) :: es, ?_, ?_⟩
    · have hw : withKey p.1 ((dget p.1 rs).getD (.error .illTyped)) = .ok (p.1, e) := by
        rw [hr p (by simp), Option.getD_some, h1]; rfl
      simp only [List.map_cons, seqE, hw, h3]
    · simp only [evalArgs, h2, h4, List.map_cons]

/-- Printing and evaluating an object with further keyword arguments. -/
theorem eval_extras {c : Cls} {ns : Str} {nss : NsMap} {ex attrs : List (Str × Val Cls F)}
    (hf : Fresh (.obj c ns nss attrs)) (he : Extras c ex) :
    evalRepr (.obj c ns nss (ex ++ attrs)) = .ok (.val (.obj c ns nss (keptExtras ex ++
      fromGeometry c (geometryOf (.obj c ns nss attrs)) (rebuiltAttrs attrs)))) := by
  have hR : Inst.Reg ⟨c, ns, nss, attrs⟩ := hf.regular _ _ _ _ .self
  have hc := (hf.made _ _ _ _ .self).concrete
  have hnew : ∀ a ∈ ex.map Prod.fst, a ∉ knownArgs c ∧ a ≠ s% "geometry" := by
    intro a ha
    have h := he.new a ha
    simp only [List.mem_append, not_or] at h
    refine ⟨fun h' => ?_, fun h' => h.2 (by rw [h']; decide)⟩
    simp only [knownArgs, List.mem_append] at h'
    exact h'.elim h.1.1 h.1.2
  have hex : ∀ a ∈ ex.map Prod.fst, a ∉ knownArgs c := fun a ha => (hnew a ha).1
  obtain ⟨e, h1, h2⟩ := eval_repr _ hf trivial
  -- the printed arguments of the class
  have hsplat : Inst.splat ⟨c, ns, nss, attrs⟩ = [] := hR.splat
  simp only [reprOf, reprStep, hsplat, List.map_nil, seqE] at h1
  cases hs : seqE ((reprFields c).map fun f => withKey f.1 (reprArg (.obj c ns nss attrs) attrs (reprAttrs attrs) f.2.1 f.2.2)) with
  | error x => simp only [hs] at h1; cases h1
  | ok as =>
    simp only [hs, List.append_nil, Except.ok.injEq] at h1
    subst h1
    simp only [evalP] at h2
    cases hev : evalArgs as with
    | error x => simp only [hev] at h2; cases h2
    | ok xs =>
      simp only [hev] at h2
      cases hcall : callCls c ns nss xs with
      | error x => simp only [hcall] at h2; cases h2
      | ok v =>
        simp only [hcall, Except.ok.injEq, PVal.val.injEq] at h2
        have hkeys : xs.map Prod.fst = (reprFields c).map Prod.fst := (evalArgs_keys hev).trans (seqE_keys hs)
        -- the further ones
        have hdr : ∀ p ∈ ex, dget p.1 (reprAttrs (ex ++ attrs)) = some (reprOf p.2) := by
          intro p hp
          rw [reprAttrs_eq, dget_map_kv reprOf, dget_append, dget_of_mem he.nodup hp]
          rfl
        obtain ⟨es, h3, h4⟩ := eval_splat (l := ex.filter fun p => p.2.notNone) (rs := reprAttrs (ex ++ attrs))
          (fun p hp => hdr p (List.mem_filter.mp hp).1) fun p hp =>
            eval_repr p.2 (he.fresh p (List.mem_filter.mp hp).1) (prints_of (he.printed p (List.mem_filter.mp hp).1))
        have hrepr : reprOf (.obj c ns nss (ex ++ attrs)) = .ok (.call c ns nss (as ++ es)) := by
          have hs' : seqE ((reprFields c).map fun f => withKey f.1 (reprArg (.obj c ns nss (ex ++ attrs)) (ex ++ attrs)
              (reprAttrs (ex ++ attrs)) f.2.1 f.2.2)) = .ok as := by
            rw [← hs]
            congr 1
            exact List.map_congr_left fun f hf => by rw [reprArg_extras hex hc hf]
          simp only [reprOf, reprStep, hs', splat_extras hex he.nodup hR, h3]
        have hoth : ∃ kw, otherArgs xs = .ok kw := by
          simp only [callCls] at hcall
          cases ho : otherArgs xs with
          | ok kw => exact ⟨kw, rfl⟩
          | error x =>
            cases hg : geometryArg xs with
            | error y => simp only [hg] at hcall; cases hcall
            | ok g => cases g <;> simp only [hg, ho] at hcall <;> cases hcall
        obtain ⟨kw, ho⟩ := hoth
        have hkw : ∀ a ∈ kw.map Prod.fst, a ∈ knownArgs c := by
          intro a ha
          obtain ⟨h5, h6⟩ := otherArgs_keys ho a ha
          rw [hkeys] at h5
          obtain ⟨f, hf1, rfl⟩ := List.mem_map.mp h5
          rcases repr_names hc hf1 with ⟨h7, _⟩ | ⟨_, h7, _⟩
          · exact absurd h7 h6
          · exact names_known h7
        have hg : geometryArg xs = .ok none ∨ c ∈ geometryClasses := by
          by_cases hgc : c ∈ geometryClasses
          · exact .inr hgc
          · left
            have : s% "geometry" ∉ xs.map Prod.fst := by
              rw [hkeys]
              intro h5
              obtain ⟨f, hf1, hf2⟩ := List.mem_map.mp h5
              rcases repr_names hc hf1 with ⟨_, h7⟩ | ⟨h7, _⟩
              · exact hgc h7
              · exact h7 hf2
            simp only [geometryArg, (dget_eq_none ..).mpr this]
        have hkept : ∀ a ∈ (keptExtras ex).map Prod.fst, a ∉ knownArgs c ∧ a ≠ s% "geometry" := by
          intro a ha
          apply hnew
          simp only [keptExtras, List.map_map, List.mem_map, List.mem_filter, Function.comp_apply] at ha ⊢
          obtain ⟨p, ⟨hp, _⟩, rfl⟩ := ha
          exact ⟨p, hp, rfl⟩
        obtain ⟨ns', nss', attrs', hv, hcall'⟩ := callCls_extras he.accepted hkept ho hkw hg hcall
        rw [hv] at h2
        simp only [rebuilt, Val.obj.injEq, true_and] at h2
        obtain ⟨rfl, rfl, h2⟩ := h2
        have h4 : evalArgs es = .ok ((keptExtras ex).map fun p => (p.1, .val p.2)) := h4
        simp only [evalRepr, hrepr, evalP, evalArgs_append hev h4, hcall', h2]

end Verif
