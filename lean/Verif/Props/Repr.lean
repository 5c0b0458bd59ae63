import Verif.Lemmas.ReprRead
import Verif.Lemmas.ReprExtra
import Verif.Props.Eq
import Verif.Props.Geometry
import Verif.Props.Reading

/-!
# C57: `eval(repr(obj)) == obj`
-/

set_option linter.unusedSectionVars false
set_option linter.unusedSimpArgs false

namespace Verif
open Spec

section
variable {F : Type} [PyExt F] [PyClose F] [LawfulExt F] [LawfulClose F]

/-- **C57.** The text that `repr` prints for an object can be evaluated.  The result is
the object with all its attributes, and those of the objects in it, except that the
coordinates of lines and rings and the boundaries of polygons are made from their
geometries. -/
theorem C57_evaluates (c : Cls) (ns : Str) (nss : NsMap) (attrs : List (Str × Val Cls F))
    (hf : Fresh (.obj c ns nss attrs)) :
    evalRepr (.obj c ns nss attrs) = .ok (.val (rebuilt (.obj c ns nss attrs))) := by
  obtain ⟨e, h1, h2⟩ := eval_repr _ hf trivial
  simp only [evalRepr, h1, h2]

/-- **C57.** The result equals the object, in both directions, and has the same `repr`. -/
theorem C57_equal (c : Cls) (ns : Str) (nss : NsMap) (attrs : List (Str × Val Cls F))
    (hf : Fresh (.obj c ns nss attrs)) :
    ∃ w, evalRepr (.obj c ns nss attrs) = .ok (.val w) ∧ pyEq w (.obj c ns nss attrs) = .ok true ∧
      pyEq (.obj c ns nss attrs) w = .ok true ∧ reprOf w = reprOf (.obj c ns nss attrs) := by
  have h := eq_rebuilt _ hf.regular hf.numbers
  refine ⟨_, C57_evaluates c ns nss attrs hf, h, ?_, repr_rebuilt _ hf.regular hf.numbers⟩
  rw [C39_symm _ _ hf.regular (regular_rebuilt _ hf.regular hf.numbers)]
  exact h

/-- **C57.** If there are no lines, rings and polygons in the object, then the result is
the same in every attribute. -/
theorem C57_identical (c : Cls) (ns : Str) (nss : NsMap) (attrs : List (Str × Val Cls F))
    (hf : Fresh (.obj c ns nss attrs))
    (hg : ∀ d ns' nss' as, Inside (.obj d ns' nss' as) (.obj c ns nss attrs) →
      d ≠ .LineString ∧ d ≠ .LinearRing ∧ d ≠ .Polygon) :
    evalRepr (.obj c ns nss attrs) = .ok (.val (.obj c ns nss attrs)) := by
  rw [C57_evaluates c ns nss attrs hf, noGeometry_rebuilt]
  intro d ns' nss' as hi
  have := hg d ns' nss' as hi
  simp [geometryClasses, this]

/-- **C57.** The result of evaluating is the same in every attribute when it is printed and
evaluated again. -/
theorem C57_stable (c : Cls) (ns : Str) (nss : NsMap) (attrs : List (Str × Val Cls F))
    (hf : Fresh (.obj c ns nss attrs)) {w : Val Cls F} (hw : evalRepr (.obj c ns nss attrs) = .ok (.val w)) :
    evalRepr w = .ok (.val w) ∧ rebuilt w = w := by
  have h := C57_evaluates c ns nss attrs hf
  rw [h] at hw
  simp only [Except.ok.injEq, PVal.val.injEq] at hw
  subst hw
  refine ⟨?_, rebuilt_rebuilt _ hf.regular hf.numbers⟩
  simp only [evalRepr, repr_rebuilt _ hf.regular hf.numbers]
  exact h

/-- **C57.** The geometry and the truth value of the result are those of the object. -/
theorem C57_geometry (c : Cls) (ns : Str) (nss : NsMap) (attrs : List (Str × Val Cls F))
    (hf : Fresh (.obj c ns nss attrs)) {w : Val Cls F} (hw : evalRepr (.obj c ns nss attrs) = .ok (.val w)) :
    geometry fastkml w = geometry fastkml (.obj c ns nss attrs) ∧
      truthy fastkml w = truthy fastkml (.obj c ns nss attrs) := by
  have h := C57_evaluates c ns nss attrs hf
  rw [h] at hw
  simp only [Except.ok.injEq, PVal.val.injEq] at hw
  subst hw
  simp only [geometry, truthy, info_rebuilt _ hf.regular hf.numbers, and_self]

/-- **C57.** Objects read from a document meet the conditions, if coordinates have two or
three components, no number is NaN and no schema has a blank id. -/
theorem C57_read {strict : Bool} {e : Xml} {c : Cls} {ns : Str} {nss : NsMap} {v : Val Cls F}
    (h : parse fastkml strict e c ns nss = .ok v) (hc : c ∉ abstractClasses)
    (hco : ∀ d, Sub e d → ¬ BadTuple F d) (hn : NoNaN v)
    (hs : Everywhere (fun c _ _ attrs => c = .Schema → attr (s% "id") attrs ≠ .none) v) : Fresh v := by
  have h1 := parse_simple h
  refine ⟨C39_read h hco, hn, ?_, ?_⟩
  · refine times_inside (fun c ns nss as hi => (h1 c ns nss as hi).1) ?_
    obtain ⟨_, as, rfl⟩ := parse_typed fastkml_readOk h
    exact simple_of trivial (by simp)
  · intro c' ns' nss' as hi
    exact ⟨parse_concrete h hc c' ns' nss' as hi, (h1 c' ns' nss' as hi).2, hs c' ns' nss' as hi⟩

/-- **C57.** An object made with further keyword arguments, which its class does not know:
the ones that are not `None` are printed too and are attributes of the result, whose other
attributes are those of the result without them. -/
theorem C57_extras (c : Cls) (ns : Str) (nss : NsMap) (ex attrs : List (Str × Val Cls F))
    (hf : Fresh (.obj c ns nss attrs)) (he : Extras c ex) :
    ∃ attrs', rebuilt (.obj c ns nss attrs) = .obj c ns nss attrs' ∧
      evalRepr (.obj c ns nss (ex ++ attrs)) = .ok (.val (.obj c ns nss (keptExtras ex ++ attrs'))) :=
  ⟨_, rebuilt.eq_1 .., eval_extras hf he⟩

/-- **C57.** If there are no lines, rings and polygons, and no `None` among the further
arguments, then the result is the same in every attribute. -/
theorem C57_extras_identical (c : Cls) (ns : Str) (nss : NsMap) (ex attrs : List (Str × Val Cls F))
    (hf : Fresh (.obj c ns nss attrs)) (he : Extras c ex) (hn : ∀ p ∈ ex, p.2 ≠ .none)
    (hg : ∀ d ns' nss' as, Inside (.obj d ns' nss' as) (.obj c ns nss (ex ++ attrs)) →
      d ≠ .LineString ∧ d ≠ .LinearRing ∧ d ≠ .Polygon) :
    evalRepr (.obj c ns nss (ex ++ attrs)) = .ok (.val (.obj c ns nss (ex ++ attrs))) := by
  have hc : ∀ {v : Val Cls F}, (∀ d ns' nss' as, Inside (.obj d ns' nss' as) v →
      d ≠ .LineString ∧ d ≠ .LinearRing ∧ d ≠ .Polygon) → rebuilt v = v := by
    intro v h
    apply noGeometry_rebuilt
    intro d ns' nss' as hi
    have := h d ns' nss' as hi
    simp [geometryClasses, this]
  obtain ⟨attrs', h1, h2⟩ := C57_extras c ns nss ex attrs hf he
  have h3 : rebuilt (.obj c ns nss attrs) = .obj c ns nss attrs := by
    refine hc fun d ns' nss' as hi => ?_
    cases hi with
    | self => exact hg _ _ _ _ .self
    | attr hm hi => exact hg _ _ _ _ (.attr (List.mem_append_right _ hm) hi)
  have h4 : keptExtras ex = ex := by
    have : ex.filter (fun p => p.2.notNone) = ex := by
      rw [List.filter_eq_self]
      intro p hp
      have := hn p hp
      cases hv : p.2 <;> simp_all [Val.notNone]
    rw [keptExtras, this]
    conv => rhs; rw [← List.map_id ex]
    refine List.map_congr_left fun p hp => ?_
    rw [hc (v := p.2) fun d ns' nss' as hi => hg _ _ _ _ (.attr (List.mem_append_left _ hp) hi)]
    rfl
  rw [h3] at h1
  simp only [Val.obj.injEq, true_and] at h1
  rw [h2, ← h1, h4]

/-- **C57.** Further arguments change neither the geometry nor the truth value of the result. -/
theorem C57_extras_geometry (c : Cls) (ns : Str) (nss : NsMap) (ex attrs : List (Str × Val Cls F))
    (hf : Fresh (.obj c ns nss attrs)) (he : Extras c ex) {w : Val Cls F}
    (hw : evalRepr (.obj c ns nss (ex ++ attrs)) = .ok (.val w)) :
    geometry fastkml w = geometry fastkml (.obj c ns nss (ex ++ attrs)) ∧
      truthy fastkml w = truthy fastkml (.obj c ns nss (ex ++ attrs)) := by
  obtain ⟨attrs', h1, h2⟩ := C57_extras c ns nss ex attrs hf he
  rw [h2] at hw
  simp only [Except.ok.injEq, PVal.val.injEq] at hw
  have hnew : ∀ a ∈ ex.map Prod.fst, a ∉ knownArgs c := by
    intro a ha h
    exact he.new a ha (List.mem_append_left _ h)
  have hkept : ∀ a ∈ (keptExtras ex).map Prod.fst, a ∉ knownArgs c := by
    intro a ha
    apply hnew
    simp only [keptExtras, List.map_map, List.mem_map, List.mem_filter, Function.comp_apply] at ha ⊢
    obtain ⟨p, ⟨hp, _⟩, rfl⟩ := ha
    exact ⟨p, hp, rfl⟩
  have h3 := info_rebuilt _ hf.regular hf.numbers
  rw [h1] at h3
  subst hw
  simp only [geometry, truthy, info_extras hnew, info_extras hkept, h3, and_self]

end

/-! ## Concrete cases -/

mutual
/-- The times are as their constructor leaves them. -/
def timesB : Val Cls Fix → Bool
  | .dt k => decide (k.again = k)
  | .whens l => l.all fun w => match w with
    | none => true
    | some k => decide (k.again = k)
  | .items l => l.all fun r => match r.when_ with
    | none => true
    | some k => decide (k.again = k)
  | .obj _ _ _ attrs => timesAttrs attrs
  | .list l => timesList l
  | _ => true
termination_by structural v => v
/-- In attributes. -/
def timesAttrs : List (Str × Val Cls Fix) → Bool
  | [] => true
  | (_, v) :: r => timesB v && timesAttrs r
termination_by structural l => l
/-- In lists. -/
def timesList : List (Val Cls Fix) → Bool
  | [] => true
  | v :: r => timesB v && timesList r
termination_by structural l => l
end

theorem timesB_member {l : List (Val Cls Fix)} (h : timesB (.list l) = true) {v : Val Cls Fix} (hm : v ∈ l) :
    timesB v = true := by
  simp only [timesB] at h
  induction l with
  | nil => cases hm
  | cons w l ih =>
    simp only [timesList, Bool.and_eq_true] at h
    rcases List.mem_cons.mp hm with rfl | hm
    · exact h.1
    · exact ih h.2 hm

theorem timesB_attr {c : Cls} {ns : Str} {nss : NsMap} {attrs : List (Str × Val Cls Fix)}
    (h : timesB (.obj c ns nss attrs) = true) {a : Str} {v : Val Cls Fix} (hm : (a, v) ∈ attrs) :
    timesB v = true := by
  simp only [timesB] at h
  induction attrs with
  | nil => cases hm
  | cons p l ih =>
    obtain ⟨b, w⟩ := p
    simp only [timesAttrs, Bool.and_eq_true] at h
    rcases List.mem_cons.mp hm with he | hm
    · cases he; exact h.1
    · exact ih h.2 hm

theorem made_again {k : KmlDateTime} (h : k.again = k) : TimeMade k := ⟨_, _, h.symm⟩

theorem times_of {v : Val Cls Fix} (h : timesB v = true) : ∀ w, Inside w v → TimesMade w := by
  intro w hi
  induction hi with
  | self =>
    cases w with
    | dt k => exact made_again (of_decide_eq_true h)
    | whens l =>
      simp only [timesB, List.all_eq_true] at h
      intro w hw k hk
      have := h w hw
      rw [hk] at this
      exact made_again (of_decide_eq_true this)
    | items l =>
      simp only [timesB, List.all_eq_true] at h
      intro w hw k hk
      have := h w hw
      rw [hk] at this
      exact made_again (of_decide_eq_true this)
    | _ => trivial
  | attr hm _ ih => exact ih (timesB_attr h hm)
  | member hm _ ih => exact ih (timesB_member h hm)

/-- Whether a constructor called with the attributes of an object returns that object. -/
def constructedB (c : Cls) (ns : Str) (nss : NsMap) (attrs : List (Str × Val Cls Fix)) : Bool :=
  decide (c ∉ abstractClasses) && decide (init fastkml c (some ns) nss attrs = .ok (.obj c ns nss attrs)) &&
  (decide (c ≠ .Schema) || decide (attr (s% "id") attrs ≠ .none))

theorem fresh_of {v : Val Cls Fix}
    (h1 : everywhereB (fun c ns nss attrs => decide (Regular c ns nss attrs)) v = true)
    (h2 : noNaNB v = true) (h3 : timesB v = true) (h4 : everywhereB constructedB v = true) : Fresh v := by
  refine ⟨regular_of h1, noNaN_of h2, times_of h3, everywhere_of (fun c ns nss attrs h => ?_) h4⟩
  simp only [constructedB, Bool.and_eq_true, Bool.or_eq_true, decide_eq_true_eq] at h
  refine ⟨h.1.1, ⟨_, _, _, h.1.2⟩, fun hc => ?_⟩
  rcases h.2 with h | h
  · exact absurd hc h
  · exact h

/-- C57_evaluates: the conditions are met by a document with styles, a schema, a folder
and placemarks, … -/
theorem sampleDoc_fresh : Fresh sampleDoc :=
  fresh_of (by decide +kernel) (by decide +kernel) (by decide +kernel) (by decide +kernel)

/-- … and by an open polygon with a hole, … -/
theorem openPolygon_fresh : Fresh openPolygon :=
  fresh_of (by decide +kernel) (by decide +kernel) (by decide +kernel) (by decide +kernel)

/-- … and by a time stamp with a year and a month, made from a date, … -/
def someStamp : Val Cls Fix := newObj .TimeStamp [(s% "id", .str (s% "t")),
  (s% "timestamp", .dt (.mk' (.date ⟨2020, 5, 17⟩) (some .yearMonth)))]

theorem someStamp_fresh : Fresh someStamp :=
  fresh_of (by decide +kernel) (by decide +kernel) (by decide +kernel) (by decide +kernel)

/-- … C57_identical: which is the same after printing and evaluating, … -/
example : evalRepr someStamp = .ok (.val someStamp) := by
  refine C57_identical _ _ _ _ someStamp_fresh fun d ns nss as hi => ?_
  have : everywhereB (fun c _ _ _ => decide (c ≠ .LineString ∧ c ≠ .LinearRing ∧ c ≠ .Polygon)) someStamp = true := by
    decide +kernel
  exact everywhere_of (Q := fun c _ _ _ => c ≠ .LineString ∧ c ≠ .LinearRing ∧ c ≠ .Polygon)
    (fun _ _ _ _ h => of_decide_eq_true h) this d ns nss as hi

/-- … while the open polygon gets closed rings, and loses its empty inner boundary;
C57_stable: once. -/
example : evalRepr openPolygon = .ok (.val (rebuilt openPolygon)) ∧ rebuilt openPolygon ≠ openPolygon ∧
    attr (s% "inner_boundaries") (match rebuilt openPolygon with
      | .obj _ _ _ as => as
      | _ => []) = .list [boundaryObj .InnerBoundaryIs [[fx 2, fx 1], [fx 4, fx 1], [fx 4, fx 3], [fx 2, fx 1]]] ∧
    rebuilt (rebuilt openPolygon) = rebuilt openPolygon :=
  ⟨C57_evaluates _ _ _ _ openPolygon_fresh, by decide +kernel, by decide +kernel,
    rebuilt_rebuilt _ openPolygon_fresh.regular openPolygon_fresh.numbers⟩

/-- C57_read: a point. -/
example : ∃ v : Val Cls Fix, parse fastkml true pointDoc .Point kmlNs [] = .ok v ∧ Fresh v := by
  have h : parse fastkml true pointDoc .Point kmlNs [] = .ok (newObj .Point [(s% "kml_coordinates",
      newObj .Coordinates [(s% "coords", .coords [[fx 1000000, fx 2000000]])])] : Val Cls Fix) := by decide +kernel
  exact ⟨_, h, fresh_of (by decide +kernel) (by decide +kernel) (by decide +kernel) (by decide +kernel)⟩

/-- C57_extras: a time stamp with a colour, an owner that is `None` and a point as further
arguments. -/
def aPoint : Val Cls Fix := newObj .Point [(s% "kml_coordinates",
  newObj .Coordinates [(s% "coords", .coords [[fx 1, fx 2]])])]

/-- See above. -/
def moreArgs : List (Str × Val Cls Fix) :=
  [(s% "colour", .str (s% "red")), (s% "owner", .none), (s% "where", aPoint)]

theorem moreArgs_extras : Extras .TimeStamp moreArgs := by
  refine ⟨by decide +kernel, by decide +kernel, by decide +kernel, ?_, ?_⟩
  · intro p hp
    simp only [moreArgs, List.mem_cons, List.not_mem_nil, or_false] at hp
    rcases hp with rfl | rfl | rfl
    · exact fresh_of (by decide +kernel) (by decide +kernel) (by decide +kernel) (by decide +kernel)
    · exact fresh_of (by decide +kernel) (by decide +kernel) (by decide +kernel) (by decide +kernel)
    · exact fresh_of (by decide +kernel) (by decide +kernel) (by decide +kernel) (by decide +kernel)
  · intro p hp
    simp only [moreArgs, List.mem_cons, List.not_mem_nil, or_false] at hp
    have ha : ∃ c ns nss as, aPoint = .obj c ns nss as := ⟨_, _, _, _, rfl⟩
    obtain ⟨c, ns, nss, as, ha⟩ := ha
    rcases hp with rfl | rfl | rfl
    · exact ⟨(fun _ _ h => by cases h), (fun _ h => by cases h)⟩
    · exact ⟨(fun _ _ h => by cases h), (fun _ h => by cases h)⟩
    · simp only [ha]
      exact ⟨(fun _ _ h => by cases h), (fun _ h => by cases h)⟩

/-- An object with further attributes. -/
def withArgs (ex : List (Str × Val Cls Fix)) : Val Cls Fix → Val Cls Fix
  | .obj c ns nss as => .obj c ns nss (ex ++ as)
  | v => v

/-- The constructor makes such an object, … -/
example : init fastkml .TimeStamp none [] (moreArgs ++ [(s% "id", .str (s% "t"))]) =
    .ok (withArgs moreArgs (newObj .TimeStamp [(s% "id", .str (s% "t"))])) := by decide +kernel

/-- … and the result has the colour and the point but not the owner. -/
example : evalRepr (withArgs moreArgs someStamp) =
    .ok (.val (withArgs [(s% "colour", .str (s% "red")), (s% "where", aPoint)] someStamp)) := by
  obtain ⟨bs, h1, h2⟩ := C57_extras .TimeStamp _ _ moreArgs _ someStamp_fresh moreArgs_extras
  have h3 : rebuilt someStamp = someStamp := by decide +kernel
  have h4 := h1.symm.trans h3
  have h5 : keptExtras moreArgs = [(s% "colour", .str (s% "red")), (s% "where", aPoint)] := by decide +kernel
  refine h2.trans ?_
  rw [← h5, ← h4]
  rfl

/-- C57_extras_identical -/
example : evalRepr (withArgs [(s% "colour", .str (s% "red"))] someStamp) =
    .ok (.val (withArgs [(s% "colour", .str (s% "red"))] someStamp)) := by
  have h := moreArgs_extras
  refine C57_extras_identical .TimeStamp _ _ [(s% "colour", .str (s% "red"))] _ someStamp_fresh
    ⟨h.accepted, by decide, fun a ha => h.new a (by simp_all [moreArgs]), fun p hp => h.fresh p (by simp_all [moreArgs]),
      fun p hp => h.printed p (by simp_all [moreArgs])⟩ (by simp) fun d ns nss as hi => ?_
  have : everywhereB (fun c _ _ _ => decide (c ≠ .LineString ∧ c ≠ .LinearRing ∧ c ≠ .Polygon))
      (withArgs [(s% "colour", .str (s% "red"))] someStamp) = true := by decide +kernel
  exact everywhere_of (Q := fun c _ _ _ => c ≠ .LineString ∧ c ≠ .LinearRing ∧ c ≠ .Polygon)
    (fun _ _ _ _ h => of_decide_eq_true h) this d ns nss as hi

/-! ## What is lost -/

/-- A polygon whose outer ring has an id and an altitude mode. -/
def namedRing : Val Cls Fix := newObj .Polygon [
  (s% "outer_boundary", newObj .OuterBoundaryIs [(s% "kml_geometry", newObj .LinearRing [
    (s% "id", .str (s% "ring")), (s% "altitude_mode", .enum .altitudeMode (s% "absolute")),
    (s% "kml_coordinates", newObj .Coordinates [(s% "coords",
      .coords [[fx 0, fx 0], [fx 9, fx 0], [fx 9, fx 9], [fx 0, fx 0]])])])])]

/-- **C57.** The result is not always the same in every attribute, although it is equal:
`repr` of a polygon prints its geometry, without the ids and altitude modes of its
rings. -/
theorem C57_ring_lost : ∃ v w : Val Cls Fix, Fresh v ∧ evalRepr v = .ok (.val w) ∧ pyEq w v = .ok true ∧
    (∃ ns nss as, Inside (.obj .LinearRing ns nss as) v ∧ attr (s% "id") as = .str (s% "ring")) ∧
    ∀ ns nss as, Inside (.obj .LinearRing ns nss as) w → attr (s% "id") as = .str [] := by
  have hf : Fresh namedRing :=
    fresh_of (by decide +kernel) (by decide +kernel) (by decide +kernel) (by decide +kernel)
  refine ⟨namedRing, rebuilt namedRing, hf, C57_evaluates _ _ _ _ hf, eq_rebuilt _ hf.regular hf.numbers,
    ⟨_, _, _, .attr (a := s% "outer_boundary") (.head _) (.attr (a := s% "kml_geometry") (.head _) .self), by
      decide +kernel⟩, fun ns nss as hi => ?_⟩
  exact everywhere_of (Q := fun c _ _ as => c = .LinearRing → attr (s% "id") as = .str [])
    (q := fun c _ _ as => decide (c = .LinearRing → attr (s% "id") as = .str []))
    (fun _ _ _ _ h => of_decide_eq_true h) (by decide +kernel) _ _ _ _ hi rfl

/-- A line with coordinates of two and of three components. -/
def mixedLine : Val Cls Fix := newObj .LineString [(s% "kml_coordinates",
  newObj .Coordinates [(s% "coords", .coords [[fx 1, fx 2], [fx 3, fx 4, fx 5]])])]

/-- **C57.** A line with coordinates of different dimensions has no geometry: all its
coordinates are lost, and still the result is equal. -/
theorem C57_coordinates_lost : ∃ v w : Val Cls Fix, Fresh v ∧ evalRepr v = .ok (.val w) ∧ pyEq w v = .ok true ∧
    (∃ ns nss as ns' nss' bs l, v = .obj .LineString ns nss as ∧ attr (s% "kml_coordinates") as =
      .obj .Coordinates ns' nss' bs ∧ attr (s% "coords") bs = .coords l ∧ l ≠ []) ∧
    (∃ ns nss as, w = .obj .LineString ns nss as ∧ attr (s% "kml_coordinates") as = .none) := by
  have hf : Fresh mixedLine :=
    fresh_of (by decide +kernel) (by decide +kernel) (by decide +kernel) (by decide +kernel)
  exact ⟨mixedLine, rebuilt mixedLine, hf, C57_evaluates _ _ _ _ hf, eq_rebuilt _ hf.regular hf.numbers,
    ⟨_, _, _, _, _, _, _, rfl, rfl, rfl, by simp⟩, ⟨_, _, _, rfl, by decide +kernel⟩⟩

/-- **C57.** The condition on schemas is needed: a schema made with a blank id can be
printed, but evaluating the text raises `KMLSchemaError`. -/
theorem C57_schema : ∃ v : Val Cls Fix, init fastkml .Schema none [] [(s% "id", .str (s% " "))] = .ok v ∧
    evalRepr v = .error .schemaError := ⟨_, rfl, rfl⟩

end Verif
