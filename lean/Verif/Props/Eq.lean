import Verif.Lemmas.EqLaws
import Verif.Lemmas.Inside
import Verif.Props.Geometry
import Verif.Props.Tracks

/-!
# C39: equality
-/

set_option linter.unusedSectionVars false
set_option linter.unusedSimpArgs false

namespace Verif

open Spec

variable {F : Type} [PyExt F] [PyClose F]

/-! ## Total, symmetric, reflexive -/

/-- **C39.** `==` of objects, as constructors leave them, raises no exception. -/
theorem C39_total (a b : Val Cls F) (ha : AllRegular a) (hb : AllRegular b) : ∃ r, pyEq a b = .ok r :=
  pyEq_total a b ha hb

/-- **C39.** `a == b` and `b == a` have the same result. -/
theorem C39_symm [LawfulExt F] [LawfulClose F] (a b : Val Cls F) (ha : AllRegular a) (hb : AllRegular b) :
    pyEq a b = pyEq b a := pyEq_comm ha hb

/-- **C39.** `a == a`, also for a copy of `a`, if there is no NaN in it. -/
theorem C39_refl [LawfulExt F] [LawfulClose F] (a : Val Cls F) (ha : AllRegular a) (hn : NoNaN a) :
    pyEq a a = .ok true := pyEq_self a ha hn

/-! ## What equality means -/

/-- **C39.** Instances of a class with the default comparison equal objects of the
same class only, with the same `ns`, the same dictionary of namespaces, and equal
attributes. -/
theorem C39_default (c d : Cls) (ns ns' : Str) (nss nss' : NsMap) (as bs : List (Str × Val Cls F))
    (hc : c ∉ [.Point, .LineString, .LinearRing, .Polygon])
    (ha : Regular c ns nss as) (hb : Regular d ns' nss' bs) :
    pyEq (.obj c ns nss as) (.obj d ns' nss' bs) = .ok true ↔
      c = d ∧ ns = ns' ∧ SameMap nss nss' ∧ ∀ a ∈ names c, pyEq (attr a as) (attr a bs) = .ok true := by
  have hrule : ∀ c ∈ Cls.all, c ∉ [Cls.Point, .LineString, .LinearRing, .Polygon] → eqRule c = .default ∧
      ∀ d ∈ Cls.all, c ≠ d → c ∈ (fastkml.info d).mro → (match eqRule d with
        | .default => true
        | .fields e _ => decide (e ∉ (fastkml.info c).mro)) = true := by decide +kernel
  obtain ⟨hr, hd⟩ := hrule c (Cls.mem_all c) hc
  have hd := hd d (Cls.mem_all d)
  rw [pyEq_eq]
  simp only [eqStep]
  by_cases hcd : c = d
  · subst hcd
    simp only [instEq, ne_eq, not_true_eq_false, false_and, if_false, true_and, methodEq, hr, if_true]
    exact dictEq_reg pyEq (x := ⟨c, ns, nss, as⟩) (y := ⟨c, ns', nss', bs⟩) ha hb rfl
  · simp only [hcd, false_and, iff_false, instEq, ne_eq, not_false_eq_true, true_and]
    have hdc : ¬ d = c := fun h => hcd h.symm
    split
    · rename_i hm
      simp only [methodEq, hdc, if_false]
      cases hrd : eqRule d with
      | default => simp
      | fields e fs =>
        have := hd hcd hm
        rw [hrd] at this
        simp only [decide_eq_true_eq] at this
        simp [this]
    · simp [methodEq, hr, hcd]

/-- A class compared with instances of `e` by attributes and geometry. -/
theorem C39_fields (c d e : Cls) (fs : List Str) (hc : eqRule c = .fields e fs) (hd : eqRule d = .fields e fs)
    (ns ns' : Str) (nss nss' : NsMap) (as bs : List (Str × Val Cls F))
    (hrel : c = d ∨ c ∉ (fastkml.info d).mro)
    (ha : Regular c ns nss as) (hb : Regular d ns' nss' bs) :
    pyEq (.obj c ns nss as) (.obj d ns' nss' bs) = .ok true ↔
      ns = ns' ∧ SameMap nss nss' ∧ SameGeometry (.obj c ns nss as) (.obj d ns' nss' bs) ∧
      ∀ a ∈ fs ++ [s% "id", s% "target_id"], pyEq (attr a as) (attr a bs) = .ok true := by
  have hno : ¬ (c ≠ d ∧ c ∈ (fastkml.info d).mro) := by
    rintro ⟨h1, h2⟩
    rcases hrel with h | h
    · exact h1 h
    · exact h h2
  rw [pyEq_eq]
  simp only [eqStep, instEq, hno, if_false]
  rw [fields_reg pyEq (x := ⟨c, ns, nss, as⟩) (y := ⟨d, ns', nss', bs⟩) ha hb hc (rule_facts hd).1, geometryEq_iff]
  simp only [Inst.val]
  constructor
  · rintro ⟨h1, h2, h3, h4⟩; exact ⟨h3, h4, h2, h1⟩
  · rintro ⟨h1, h2, h3, h4⟩; exact ⟨h4, h3, h1, h2⟩

/-- **C39.** Points are equal if `extrude`, `altitude_mode`, the geometry, the
namespaces and the ids are. -/
theorem C39_point (ns ns' : Str) (nss nss' : NsMap) (as bs : List (Str × Val Cls F))
    (ha : Regular .Point ns nss as) (hb : Regular .Point ns' nss' bs) :
    pyEq (.obj .Point ns nss as) (.obj .Point ns' nss' bs) = .ok true ↔
      ns = ns' ∧ SameMap nss nss' ∧ SameGeometry (.obj .Point ns nss as) (.obj .Point ns' nss' bs) ∧
      ∀ a ∈ [s% "extrude", s% "altitude_mode", s% "id", s% "target_id"],
        pyEq (attr a as) (attr a bs) = .ok true :=
  C39_fields .Point .Point .Point [s% "extrude", s% "altitude_mode"] (by decide +kernel) (by decide +kernel)
    ns ns' nss nss' as bs (Or.inl rfl) ha hb

/-- **C39.** Lines, rings and polygons are equal if `extrude`, `tessellate`, the
geometry, the namespaces and the ids are; `altitude_mode` is not compared. -/
theorem C39_line (c : Cls) (hc : c ∈ [Cls.LineString, .LinearRing, .Polygon])
    (ns ns' : Str) (nss nss' : NsMap) (as bs : List (Str × Val Cls F))
    (ha : Regular c ns nss as) (hb : Regular c ns' nss' bs) :
    pyEq (.obj c ns nss as) (.obj c ns' nss' bs) = .ok true ↔
      ns = ns' ∧ SameMap nss nss' ∧ SameGeometry (.obj c ns nss as) (.obj c ns' nss' bs) ∧
      ∀ a ∈ [s% "extrude", s% "tessellate", s% "id", s% "target_id"],
        pyEq (attr a as) (attr a bs) = .ok true := by
  have : ∀ c ∈ [Cls.LineString, .LinearRing, .Polygon],
      eqRule c = .fields .LineString [s% "extrude", s% "tessellate"] ∨
      eqRule c = .fields .Polygon [s% "extrude", s% "tessellate"] := by decide +kernel
  rcases this c hc with h | h
  · exact C39_fields c c .LineString _ h h ns ns' nss nss' as bs (Or.inl rfl) ha hb
  · exact C39_fields c c .Polygon _ h h ns ns' nss nss' as bs (Or.inl rfl) ha hb

/-- **C39.** A ring equals a line only if neither has a geometry: their geometries are
of different types. -/
theorem C39_ring_line (ns ns' : Str) (nss nss' : NsMap) (as bs : List (Str × Val Cls F))
    (ha : AllRegular (.obj .LinearRing ns nss as)) (hb : AllRegular (.obj .LineString ns' nss' bs))
    (h : pyEq (.obj .LinearRing ns nss as) (.obj .LineString ns' nss' bs) = .ok true) :
    geometry fastkml (.obj .LinearRing ns nss as) = .ok none ∧
      geometry fastkml (.obj .LineString ns' nss' bs) = .ok none := by
  rw [C39_fields .LinearRing .LineString .LineString [s% "extrude", s% "tessellate"] (by decide +kernel)
    (by decide +kernel) ns ns' nss nss' as bs (Or.inr (by decide +kernel)) (ha _ _ _ _ .self) (hb _ _ _ _ .self)] at h
  rcases h.2.2.1 with h | ⟨g, k, hg, hk, _, _, hc⟩
  · exact h
  · exfalso
    have h1 : ∃ l, g = .linearRing l := by
      rw [geometry_obj] at hg
      simp only [show (fastkml.info .LinearRing).geom = .linearRing from rfl, geomStep] at hg
      split at hg
      · cases hg
      · cases hg
      · split at hg
        · cases hg
        · split at hg
          · cases hg
          · rename_i l hl
            cases l with
            | none => cases hg
            | some l => simp at hg; exact ⟨l, hg.symm⟩
    have h2 : ∃ l, k = .lineString l := by
      rw [geometry_obj] at hk
      simp only [show (fastkml.info .LineString).geom = .lineString from rfl, geomStep] at hk
      split at hk
      · cases hk
      · cases hk
      · split at hk
        · cases hk
        · split at hk
          · cases hk
          · rename_i l hl
            cases l with
            | none => cases hk
            | some l => simp at hk; exact ⟨l, hk.symm⟩
    obtain ⟨l, rfl⟩ := h1
    obtain ⟨m, rfl⟩ := h2
    cases hc

/-- Other objects of different classes are different. -/
theorem C39_classes (c d : Cls) (ns ns' : Str) (nss nss' : NsMap) (as bs : List (Str × Val Cls F)) (h : c ≠ d)
    (hl : ¬ (c ∈ [Cls.LineString, .LinearRing] ∧ d ∈ [Cls.LineString, .LinearRing])) :
    pyEq (.obj c ns nss as) (.obj d ns' nss' bs) = .ok false := by
  have hfin : ∀ c ∈ Cls.all, ∀ d ∈ Cls.all, c ≠ d →
      ¬ (c ∈ [Cls.LineString, .LinearRing] ∧ d ∈ [Cls.LineString, .LinearRing]) →
      (match eqRule c with
        | .default => true
        | .fields e _ => decide (e ∉ (fastkml.info d).mro)) = true := by decide +kernel
  have h1 := hfin c (Cls.mem_all c) d (Cls.mem_all d) h hl
  have h2 := hfin d (Cls.mem_all d) c (Cls.mem_all c) (fun e => h e.symm) (fun e => hl ⟨e.2, e.1⟩)
  have key : ∀ {x y : Inst F}, x.c ≠ y.c → (match eqRule x.c with
        | .default => true
        | .fields e _ => decide (e ∉ (fastkml.info y.c).mro)) = true → methodEq pyEq x y = .ok false := by
    intro x y hne hr
    simp only [methodEq]
    cases hx : eqRule x.c with
    | default => simp [hne]
    | fields e fs =>
      rw [hx] at hr
      simp only [decide_eq_true_eq] at hr
      simp [hr, hne]
  rw [pyEq_eq]
  simp only [eqStep, instEq]
  split
  · exact key (x := ⟨d, ns', nss', bs⟩) (y := ⟨c, ns, nss, as⟩) (fun e => h e.symm) h2
  · exact key (x := ⟨c, ns, nss, as⟩) (y := ⟨d, ns', nss', bs⟩) h h1

/-- **C39.** Lists are equal if they have the same length and equal elements. -/
theorem C39_list (l m : List (Val Cls F)) :
    pyEq (.list l) (.list m) = .ok true ↔ All2 (fun v w => pyEq v w = .ok true) l m := by
  rw [pyEq_eq]
  simp only [eqStep, listEq]
  by_cases hl : l.length = m.length
  · simp only [hl, ne_eq, not_true_eq_false, if_false, allE_true, List.mem_map]
    induction l generalizing m with
    | nil =>
      cases m with
      | nil => exact ⟨fun _ => .nil, by simp⟩
      | cons _ _ => cases hl
    | cons v l ih =>
      cases m with
      | nil => cases hl
      | cons w m =>
        have := ih m (by simpa using hl)
        constructor
        · intro h
          refine .cons (h _ ⟨(v, w), by simp, rfl⟩) (this.mp ?_)
          rintro r ⟨p, hp, rfl⟩
          exact h _ ⟨p, by simp [hp], rfl⟩
        · intro h
          cases h with
          | cons h1 h2 =>
            rintro r ⟨p, hp, rfl⟩
            simp only [List.zip_cons_cons, List.mem_cons] at hp
            rcases hp with rfl | hp
            · exact h1
            · exact this.mpr h2 _ ⟨p, hp, rfl⟩
  · simp only [ne_eq, hl, not_false_eq_true, if_true]
    constructor
    · intro h; cases h
    · intro h; exact absurd h.length hl

/-- **C39.** Texts are equal if they have the same characters, members of enumerations
if they are the same member; texts are never equal to `None`. -/
theorem C39_scalars :
    (∀ s t : Str, pyEq (F := F) (.str s) (.str t) = .ok (decide (s = t))) ∧
    (∀ e f x y, pyEq (F := F) (.enum e x) (.enum f y) = .ok (decide (e = f) && decide (x = y))) ∧
    (∀ s : Str, pyEq (F := F) (.str s) .none = .ok false) ∧
    (∀ f g : F, pyEq (.float f) (.float g) = .ok (PyExt.beq f g)) ∧
    (∀ b c : Bool, pyEq (F := F) (.bool b) (.bool c) = .ok (decide (b = c))) := by
  refine ⟨fun s t => ?_, fun e f x y => ?_, fun s => ?_, fun f g => ?_, fun b c => ?_⟩ <;> rw [pyEq_eq] <;>
    simp only [eqStep, plainEq, Val.num, numEq]
  cases b <;> cases c <;> rfl

/-! ## Where such objects come from -/

omit [PyClose F] in
/-- The attributes a constructor sets. -/
theorem construct_layout {c : Cls} {ns : Str} {nss : NsMap} {kw : List (Str × Val Cls F)} {ns' : Str} {nss' : NsMap}
    {as : List (Str × Val Cls F)} (h : construct fastkml c ns nss kw = .ok (.obj c ns' nss' as))
    (hk : ∀ a v, (a, v) ∈ kw → a ∈ specialArgs (fastkml.info c).special ++ (fastkml.info c).slots.map Prod.fst) :
    as.map Prod.fst = names c ∧ nss' = mergeNs nss := by
  simp only [construct] at h
  have hex : (kw.filter fun p => decide (p.1 ∉ specialArgs (fastkml.info c).special ++
      (fastkml.info c).slots.map Prod.fst)) = [] := by
    simp only [List.filter_eq_nil_iff, decide_eq_true_eq]
    rintro ⟨a, v⟩ hm hn
    exact hn (hk a v hm)
  rw [hex] at h
  simp only [ne_eq, not_true_eq_false, false_and, if_false, List.nil_append] at h
  split at h
  · cases h
  · rename_i sp hsp
    split at h
    · cases h
    · rename_i sl hsl
      cases h
      refine ⟨?_, rfl⟩
      rw [List.map_append, fillSlots_keys hsl]
      unfold names
      congr 1
      cases hs : (fastkml.info c).special <;> rw [hs] at hsp <;> simp only [specialInit] at hsp
      · cases hsp; rfl
      · split at hsp
        · cases hsp
        · split at hsp <;> cases hsp
          rfl
        · cases hsp
      · split at hsp <;> cases hsp
        rfl
      · split at hsp <;> cases hsp
        rfl
      · cases hsp; rfl

omit [PyClose F] in
/-- **C39.** What is read from a document, with coordinates of two or three
components, meets the conditions above. -/
theorem C39_read {strict : Bool} {e : Xml} {c : Cls} {ns : Str} {nss : NsMap} {v : Val Cls F}
    (h : parse fastkml strict e c ns nss = .ok v)
    (hco : ∀ d, Sub e d → ¬ BadTuple F d) : AllRegular v := by
  have hco' : ∀ d, Sub e d → CoordsOk (F := F) dim23 d := by
    intro d hd t cs ht hcs
    simp only [dim23, List.all_eq_true, decide_eq_true_eq]
    intro p hp
    by_cases h2 : p.length = 2
    · exact Or.inl h2
    · by_cases h3 : p.length = 3
      · exact Or.inr h3
      · exact absurd ⟨t, cs, p, ht, hcs, hp, h2, h3⟩ (hco d hd)
  have key : ∀ {e c ns nss as ns' nss'}, (∀ d, Sub e d → CoordsOk (F := F) dim23 d) →
      parse fastkml strict e c ns nss = .ok (.obj c ns' nss' as) → Regular (F := F) c ns' nss' as := by
    intro e c ns nss as ns' nss' hco h
    have ht := (parse_typedP fastkml_readOk hco h).1
    simp only [typed, Bool.and_eq_true] at ht
    rw [parse_eq] at h
    simp only [parseStep] at h
    split at h
    · cases h
    · rename_i kw hkw
      obtain ⟨h1, h2⟩ := construct_layout h (by
        intro a v ha
        rcases getKwargs_mem hkw ha with hb | ⟨it, hit, rfl, _⟩
        · cases hb
        · exact (fastkml_readOk c).attr_known hit)
      exact ⟨ht.1, h1, h2 ▸ mergeNs_nodup _⟩
  intro c' ns' nss' as hi
  rcases parse_inside e h hi with heq | ⟨k, hk, d, hkd, _, _, hp⟩
  · obtain ⟨_, as', hv⟩ := parse_typedP fastkml_readOk hco' h
    rw [hv] at heq
    cases heq
    exact key hco' (hv ▸ h)
  · have hed : Sub e d := by
      cases e with
      | mk t a x ks => exact Sub.kid hk hkd
    exact key (fun d' hd' => hco' d' (Sub.trans hed hd')) hp

/-! ## Concrete cases -/

/-- Closeness of fixed-point numbers: the relative tolerance is `1e-09`. -/
instance : PyClose Fix where
  close f g := match f.val, g.val with
    | some a, some b => decide ((a - b).natAbs * 1000000000 ≤ max a.natAbs b.natAbs)
    | _, _ => false

instance : LawfulClose Fix where
  close_refl := by
    rintro ⟨_ | a⟩ h
    · cases h
    · simp [PyClose.close]
  close_symm := by
    rintro ⟨_ | a⟩ ⟨_ | b⟩ <;> simp only [PyClose.close]
    have : (a - b).natAbs = (b - a).natAbs := by omega
    rw [this, Nat.max_comm]

instance (c : Cls) (ns : Str) (nss : NsMap) (attrs : List (Str × Val Cls Fix)) :
    Decidable (Regular c ns nss attrs) :=
  decidable_of_iff (objOk fastkml dim23 c attrs = true ∧ attrs.map Prod.fst = names c ∧ (nss.map Prod.fst).Nodup)
    ⟨fun h => ⟨h.1, h.2.1, h.2.2⟩, fun h => ⟨h.typed, h.layout, h.nss⟩⟩

theorem regular_of {v : Val Cls Fix}
    (h : everywhereB (fun c ns nss attrs => decide (Regular c ns nss attrs)) v = true) : AllRegular v :=
  everywhere_of (fun _ _ _ _ h => of_decide_eq_true h) h

/-- The conditions are met by a document with styles, schema, folder, lines and data; … -/
theorem sampleDoc_regular : AllRegular sampleDoc := regular_of (by decide +kernel)

mutual
/-- `NoNaN`, computed. -/
def noNaNB : Val Cls Fix → Bool
  | .float f => !PyExt.isNaN f
  | .floats l => l.all fun f => !PyExt.isNaN f
  | .coords l => l.all fun p => p.all fun f => !PyExt.isNaN f
  | .items l => l.isEmpty
  | .list l => noNaNList l
  | .obj _ _ _ attrs => noNaNAttrs attrs
  | _ => true
termination_by structural v => v
/-- The same for lists. -/
def noNaNList : List (Val Cls Fix) → Bool
  | [] => true
  | v :: r => noNaNB v && noNaNList r
termination_by structural l => l
/-- The same for attributes. -/
def noNaNAttrs : List (Str × Val Cls Fix) → Bool
  | [] => true
  | (_, v) :: r => noNaNB v && noNaNAttrs r
termination_by structural l => l
end

theorem noNaNB_member {l : List (Val Cls Fix)} (h : noNaNB (.list l) = true) {v : Val Cls Fix} (hm : v ∈ l) :
    noNaNB v = true := by
  simp only [noNaNB] at h
  induction l with
  | nil => cases hm
  | cons w l ih =>
    simp only [noNaNList, Bool.and_eq_true] at h
    rcases List.mem_cons.mp hm with rfl | hm
    · exact h.1
    · exact ih h.2 hm

theorem noNaNB_attr {c : Cls} {ns : Str} {nss : NsMap} {attrs : List (Str × Val Cls Fix)}
    (h : noNaNB (.obj c ns nss attrs) = true) {a : Str} {v : Val Cls Fix} (hm : (a, v) ∈ attrs) :
    noNaNB v = true := by
  simp only [noNaNB] at h
  induction attrs with
  | nil => cases hm
  | cons p l ih =>
    obtain ⟨b, w⟩ := p
    simp only [noNaNAttrs, Bool.and_eq_true] at h
    rcases List.mem_cons.mp hm with he | hm
    · cases he; exact h.1
    · exact ih h.2 hm

theorem noNaN_of {v : Val Cls Fix} (h : noNaNB v = true) : NoNaN v := by
  intro w hi
  induction hi with
  | self =>
    cases w <;> simp only [noNaNB, Numeric, List.all_eq_true, Bool.not_eq_true', List.isEmpty_iff] at h ⊢ <;>
      first | exact h | skip
    subst h; intro r hr; cases hr
  | attr hm _ ih => exact ih (noNaNB_attr h hm)
  | member hm _ ih => exact ih (noNaNB_member h hm)

/-- … `==` finds the difference in a coordinate of the last placemark, in both
directions, … -/
def otherDoc : Val Cls Fix := newObj .Document [
  (s% "id", .str (s% " d")), (s% "features", .list [
    sampleMark (s% "b") [[fx 1, fx 2, fx 7], [fx 3, fx (-4), fx 9]]])]

/-- The same with another coordinate. -/
def otherDoc' : Val Cls Fix := newObj .Document [
  (s% "id", .str (s% " d")), (s% "features", .list [
    sampleMark (s% "b") [[fx 1, fx 2, fx 7], [fx 3, fx (-4), fx 8]]])]

example : AllRegular otherDoc ∧ AllRegular otherDoc' ∧ pyEq otherDoc otherDoc' = .ok false ∧
    pyEq otherDoc otherDoc = .ok true ∧ pyEq sampleDoc otherDoc = .ok false :=
  ⟨regular_of (by decide +kernel), regular_of (by decide +kernel), by decide +kernel, by decide +kernel,
    by decide +kernel⟩

/-- … it has no NaN, … -/
example : NoNaN otherDoc ∧ NoNaN sampleDoc := ⟨noNaN_of (by decide +kernel), noNaN_of (by decide +kernel)⟩

/-- … and an open polygon with a hole equals itself. -/
example : AllRegular openPolygon ∧ pyEq openPolygon openPolygon = .ok true :=
  ⟨regular_of (by decide +kernel), by decide +kernel⟩

/-- C39_read: a point with two coordinates. -/
def pointDoc : Xml := .mk (kmlNs ++ s% "Point") [] none [.leaf (kmlNs ++ s% "coordinates") (s% "1,2")]

theorem pointDoc_tuples : ∀ d, Sub pointDoc d → ¬ BadTuple Fix d := by
  rintro d hd ⟨t, cs, p, ht, hcs, hp, h2, h3⟩
  cases hd with
  | refl => cases ht
  | kid hk hd =>
    simp only [pointDoc, Xml.kids, List.mem_singleton] at hk
    subst hk
    cases hd with
    | refl =>
      cases ht
      have : tuplesOf (F := Fix) (latlons (s% "1,2")) = some [[fx 1000000, fx 2000000]] := by decide +kernel
      rw [this] at hcs
      cases hcs
      simp only [List.mem_singleton] at hp
      subst hp
      exact h2 rfl
    | kid hk _ => cases hk

theorem pointDoc_read : ∃ v : Val Cls Fix, parse fastkml true pointDoc .Point kmlNs [] = .ok v := by
  cases h : parse (F := Fix) fastkml true pointDoc .Point kmlNs [] with
  | ok v => exact ⟨v, rfl⟩
  | error x =>
    have : parse (F := Fix) fastkml true pointDoc .Point kmlNs [] ≠ .error x := by
      cases x <;> decide +kernel
    exact absurd h this

example : (∃ v : Val Cls Fix, parse fastkml true pointDoc .Point kmlNs [] = .ok v) ∧
    ∀ d, Sub pointDoc d → ¬ BadTuple Fix d := ⟨pointDoc_read, pointDoc_tuples⟩

/-- A line. -/
def lineWith (mode : Str) : Val Cls Fix := newObj .LineString [
  (s% "altitude_mode", .enum .altitudeMode mode),
  (s% "kml_coordinates", newObj .Coordinates [(s% "coords", .coords [[fx 1, fx 2], [fx 3, fx 4]])])]

/-- **C39**, disagreement: lines that differ in `altitude_mode` are equal, but are
written differently. -/
theorem C39_altitude_ignored : ∃ v w : Val Cls Fix, AllRegular v ∧ AllRegular w ∧ pyEq v w = .ok true ∧
    ser fastkml ⟨none, .normal⟩ v ≠ ser fastkml ⟨none, .normal⟩ w := by
  refine ⟨lineWith (s% "absolute"), lineWith (s% "clampToGround"), regular_of (by decide +kernel),
    regular_of (by decide +kernel), by decide +kernel, fun h => ?_⟩
  have h2 := congrArg (fun r : Except Err Xml => match r with
    | .ok e => (e.find (kmlNs ++ s% "altitudeMode")).bind Xml.text
    | .error _ => none) h
  revert h2
  decide +kernel

/-- A point. -/
def pointWith (x y : Fix) (kw : List (Str × Val Cls Fix)) : Val Cls Fix :=
  newObj .Point (kw ++ [(s% "kml_coordinates", newObj .Coordinates [(s% "coords", .coords [[x, y]])])])

/-- **C39**, disagreement: with an argument that the constructor does not know,
`p == q` is true and `q == p` raises `AttributeError`. -/
theorem C39_not_symm : ∃ p q : Val Cls Fix, pyEq p q = .ok true ∧ ∃ x, pyEq q p = .error x :=
  ⟨pointWith (fx 1) (fx 2) [], pointWith (fx 1) (fx 2) [(s% "foo", .str (s% "bar"))], by decide +kernel,
    .illTyped, by decide +kernel⟩

/-- **C39**, disagreement: a point with a NaN does not equal itself. -/
theorem C39_not_refl : ∃ p : Val Cls Fix, AllRegular p ∧ pyEq p p = .ok false :=
  ⟨pointWith ⟨none⟩ (fx 2) [], regular_of (by decide +kernel), by decide +kernel⟩

/-- **C39**: `LineString() == LinearRing()`, objects of different classes. -/
theorem C39_empty_line : pyEq (newObj .LineString []) (newObj .LinearRing []) = .ok true := by decide +kernel

/-- **C39**: `==` of points is not transitive, since coordinates are compared with a
tolerance; the right hand point is written differently from the left hand one. -/
theorem C39_not_trans : ∃ p q r : Val Cls Fix, AllRegular p ∧ AllRegular q ∧ AllRegular r ∧
    pyEq p q = .ok true ∧ pyEq q r = .ok true ∧ pyEq p r = .ok false :=
  ⟨pointWith (fx 10000000000) (fx 0) [], pointWith (fx 10000000010) (fx 0) [], pointWith (fx 10000000020) (fx 0) [],
    regular_of (by decide +kernel), regular_of (by decide +kernel), regular_of (by decide +kernel),
    by decide +kernel, by decide +kernel, by decide +kernel⟩

end Verif
