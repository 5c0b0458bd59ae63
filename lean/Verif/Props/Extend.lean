import Verif.Lemmas.Declare
import Verif.Props.Cycle
import Verif.Props.Tracks

/-!
# Extending the library (C62)

A user of the library can register a further attribute for a class
(docs/working_with_kml.rst:92-157).  The registration changes nothing but the new
attribute: the rest of every document is read and written as before, and the new
attribute is read, written and read back like an attribute of the library.

The theorems are about every library `L` (the classes with their behaviour and the
registry), so that they also apply after classes were added; below they are applied
to fastkml and to the example in the documentation.
-/

set_option linter.unusedSectionVars false
set_option linter.unusedSimpArgs false

namespace Verif

open Spec

variable {C F : Type} [DecidableEq C] [PyExt F] [LawfulExt F] {L : Lib C} {c : C} {it : Item C}

/-! ## Reading -/

/-- **C62.** What the extended library reads is what the library read before, and the
new attribute: removing it from all objects gives the old result. -/
theorem C62_forget (hf : NewAttr L c it) {strict : Bool} {d : C} {ns : Option Str} {nss : NsMap} {e : Xml} {v : Val C F}
    (h : fromElement (L.register c it) strict d ns nss e = .ok v) :
    fromElement L strict d ns nss e = .ok (forget L c it.attr v) :=
  (parse_forget hf (mergeNs_idem nss) e d _).1 v h

/-- Text is never an error, and in lenient mode no scalar is, except an integer in an XML
attribute. -/
def quiet (strict : Bool) (g : GetFn) : Bool :=
  decide (g = .nodeText ∨ g = .subText ∨ g = .attrText) || (!strict && scalar g && decide (g ≠ .attrInt))

theorem tryNs_quiet (hq : quiet strict it.get = true) (hc : classesOk it = true) {N : NsMap} {e : Xml}
    {kids : List (Kid C F)} {ids : List Str} {y : Err} : tryNs L it strict N e kids ids ≠ .error y := by
  induction ids with
  | nil => simp [tryNs]
  | cons i ids ih =>
    simp only [tryNs]
    have hk : ∀ y, getKwarg (F := F) L it strict (nsGet N i) N e kids ≠ .error y := by
      intro y
      simp only [quiet, Bool.or_eq_true, decide_eq_true_eq, Bool.and_eq_true, Bool.not_eq_true'] at hq
      rcases hq with (h | h | h) | ⟨⟨rfl, h1⟩, h2⟩
      · simp [getKwarg, h]
      · simp [getKwarg, h]
      · simp [getKwarg, h]
      · rw [getKwarg_scalar h1 hc]
        unfold scalarResult
        split
        · simp
        · split
          · simp
          · simp [h2, handleError]
    cases h : getKwarg (F := F) L it strict (nsGet N i) N e kids with
    | error x => exact absurd h (hk x)
    | ok o => cases o with
      | none => exact ih
      | some v => simp

/-- **C62.** If reading the new attribute cannot fail, then reading fails exactly where it
failed before, with the same exception. -/
theorem C62_same (hf : NewAttr L c it) {strict : Bool} (hq : quiet strict it.get = true) (hc : classesOk it = true)
    (d : C) (ns : Option Str) (nss : NsMap) (e : Xml) :
    fromElement (F := F) L strict d ns nss e = (fromElement (L.register c it) strict d ns nss e).map (forget L c it.attr) :=
  ((parse_forget hf (mergeNs_idem nss) e d _).imp fun _ _ _ _ => tryNs_quiet hq hc).eq

/-- **C62.** A new scalar attribute has the value that the document gives it: the first
meaningful text in the namespaces of the item (see C10).  It is missing if there is none. -/
theorem C62_scalar (hf : NewAttr L c it) (hs : scalar it.get = true) (hc : classesOk it = true) {strict : Bool} {d : C}
    (hd : Inherits L d c) {ns : Option Str} {nss : NsMap} {e : Xml} {v : Val C F}
    (h : fromElement (L.register c it) strict d ns nss e = .ok v) :
    ∃ ns' attrs, v = .obj d ns' (mergeNs nss) attrs ∧ dget it.attr attrs = firstValue strict it (mergeNs nss) e it.nsIds := by
  obtain ⟨attrs, r, h1, h2, h3⟩ := parse_new hf hd h
  rw [mergeNs_idem] at h1 h3
  exact ⟨_, attrs, h1, by rw [h2]; exact tryNs_scalar hs hc h3⟩

/-- **C62.** A new attribute with an object, of one class, in one namespace: it is missing if no child has
the name of the class, and otherwise it is the reading of the first child that has. -/
theorem C62_object (hf : NewAttr L c it) (hs : it.get = .xmlSub) {id : Str} (hi : it.nsIds = [id]) {k : C}
    (hk : it.classes = [.cls k]) {strict : Bool} {d : C} (hd : Inherits L d c) {ns : Option Str} {nss : NsMap} {e : Xml}
    {v : Val C F} (h : fromElement (L.register c it) strict d ns nss e = .ok v) :
    ∃ ns' attrs, v = .obj d ns' (mergeNs nss) attrs ∧
      match e.find (nsGet (mergeNs nss) id ++ (L.info k).tag) with
      | none => dget it.attr attrs = none
      | some x => ∃ w, fromElement (L.register c it) strict k (some (nsGet (mergeNs nss) id)) (mergeNs nss) x = .ok w ∧
          dget it.attr attrs = some w := by
  obtain ⟨attrs, r, h1, h2, h3⟩ := parse_new hf hd h
  rw [mergeNs_idem] at h1 h3
  rw [hi] at h3
  simp only [tryNs, getKwarg, hs] at h3
  refine ⟨_, attrs, h1, ?_⟩
  cases h4 : getXmlSub (F := F) (L.register c it) (kidsOf (parse (L.register c it) strict) e.kids)
      (nsGet (mergeNs nss) id) (mergeNs nss) it.classes with
  | error x => rw [h4] at h3; cases h3
  | ok o =>
    rw [h4] at h3
    rw [hk] at h4
    rcases getXmlSub_iff h4 with ⟨rfl, h5⟩ | ⟨pre, d', post, x, w, h5, h6, h7, h8, rfl⟩
    · cases h3
      rw [← register_info L c it, h5 k (by simp)]
      exact h2
    · cases h3
      have hp : pre = [] ∧ d' = k := by
        cases pre with
        | nil => simp at h5; exact ⟨rfl, h5.1.symm⟩
        | cons a pre => simp at h5
      obtain ⟨rfl, rfl⟩ := hp
      rw [← register_info L c it, h7]
      exact ⟨w, by simpa only [fromElement, Option.getD_some, mergeNs_idem] using h8, h2⟩

/-- **C62.** A new list attribute has the readings of all children with the name of a class of
the item, class by class, in document order. -/
theorem C62_list (hf : NewAttr L c it) (hs : it.get = .xmlSubList) {id : Str} {ids : List Str} (hi : it.nsIds = id :: ids)
    {strict : Bool} {d : C} (hd : Inherits L d c) {ns : Option Str} {nss : NsMap} {e : Xml} {v : Val C F}
    (h : fromElement (L.register c it) strict d ns nss e = .ok v) :
    ∃ ns' attrs vss, v = .obj d ns' (mergeNs nss) attrs ∧ dget it.attr attrs = some (.list (List.flatten vss)) ∧
      All2 (fun t vs => ∃ k, t = .cls k ∧
        All2 (fun x w => fromElement (L.register c it) strict k (some (nsGet (mergeNs nss) id)) (mergeNs nss) x = .ok w)
          (e.findall (nsGet (mergeNs nss) id ++ (L.info k).tag)) vs) it.classes vss := by
  obtain ⟨attrs, r, h1, h2, h3⟩ := parse_new hf hd h
  rw [mergeNs_idem] at h1 h3
  rw [hi] at h3
  simp only [tryNs, getKwarg, hs] at h3
  cases h4 : getXmlSubList (F := F) (L.register c it) (kidsOf (parse (L.register c it) strict) e.kids)
      (nsGet (mergeNs nss) id) (mergeNs nss) it.classes with
  | error x => rw [h4] at h3; cases h3
  | ok vs =>
    rw [h4] at h3
    cases h3
    obtain ⟨vss, h5, rfl⟩ := getXmlSubList_iff h4
    refine ⟨_, attrs, vss, h1, h2, h5.imp ?_⟩
    intro t vs _ _ h6
    obtain ⟨k, rfl, hk⟩ := h6
    refine ⟨k, rfl, ?_⟩
    simpa only [fromElement, Option.getD_some, mergeNs_idem, register_info] using hk

/-! ## Writing -/

/-- **C62.** Objects in which the new attribute is not set are written as before. -/
theorem C62_writes (hf : NewAttr L c it) {o : Opts} (ho : it.dflt = .none ∨ o.verbosity ≠ .verbose) {v : Val C F}
    (hv : Everywhere (fun d _ _ attrs => Inherits L d c → attr it.attr attrs = .none) v) :
    ser (L.register c it) o v = ser L o v :=
  ser_register hf ho v hv

/-! ## Round trips -/

/-- **C62.** Reading is the same whether the constructors declare the attribute as a parameter or
accept it as a further keyword argument. -/
theorem C62_declared_reads (hf : NewAttr L c it) (hi : it.nsIds ≠ []) (hL : Sound L) (strict : Bool) (d : C)
    (ns : Option Str) (nss : NsMap) (e : Xml) :
    fromElement (F := F) (L.register c it) strict d ns nss e =
      (fromElement (declared L c it) strict d ns nss e).map (asExtra L c it) := by
  unfold fromElement
  rw [nsid_declared, register_info]
  exact parse_declared hf hi (fun d _ => hL.read d) (mergeNs_idem nss) e d _

/-- **C62.** The same for writing. -/
theorem C62_declared_writes (hf : NewAttr L c it) (hs : Suitable L c it) (o : Opts) (v : Val C F) :
    ser (L.register c it) o (asExtra L c it v) = ser (declared L c it) o v :=
  ser_declared hf (fun h => ⟨by rw [hs.set, h]; rfl, hs.attrDflt h⟩) o v

/-- **C62.** Writing and reading objects with the new attribute: the result is that of the cycle (see
C02) in the library in which the attribute is declared. -/
theorem C62_cycle (hL : Sound L) (hf : NewAttr L c it) (hs : Suitable L c it) {d : C} {ns : Str} {nss : NsMap}
    {attrs : List (Str × Val C F)} (ht : typed (declared L c it) dim23 (.obj d ns nss attrs) = true) {M : NsMap} (hM : NsOk M)
    {o : Opts} (hr : Everywhere (Readable (declared L c it) o (mergeNs M)) (.obj d ns nss attrs)) (strict : Bool) :
    ∃ e, ser (L.register c it) o (asExtra L c it (.obj d ns nss attrs)) = .ok e ∧
      fromElement (L.register c it) strict d (some ns) M e =
        .ok (asExtra L c it (cycle (declared L c it) o (mergeNs M) (.obj d ns nss attrs))) := by
  have hD := sound_declared hL hf hs
  obtain ⟨e, he⟩ := ser_succeeds hD ht o
  refine ⟨e, by rw [C62_declared_writes hf hs, he], ?_⟩
  rw [C62_declared_reads hf hs.ids hL]
  unfold fromElement
  rw [show Option.getD (some ns) _ = ns from rfl,
    parse_ser (nsOk_merge hM) (mergeNs_idem M) hD.read hD.write hD.bool hD.cycle hD.names strict _ ht hr d ns nss attrs rfl e he]
  rfl

/-- **C62.** Round trip: an object in canonical form, with values of the new attribute anywhere in it, is
written and read back unchanged. -/
theorem C62_roundtrip (hL : Sound L) (hf : NewAttr L c it) (hs : Suitable L c it) {d : C} {ns : Str} {nss : NsMap}
    {attrs : List (Str × Val C F)} (ht : typed (declared L c it) dim23 (.obj d ns nss attrs) = true) {M : NsMap} (hM : NsOk M)
    (hr : Everywhere (Readable (declared L c it) ⟨none, .normal⟩ (mergeNs M)) (.obj d ns nss attrs))
    (hc : AllCanonical (declared L c it) (mergeNs M) (.obj d ns nss attrs)) (strict : Bool) :
    ∃ e, ser (L.register c it) ⟨none, .normal⟩ (asExtra L c it (.obj d ns nss attrs)) = .ok e ∧
      fromElement (L.register c it) strict d (some ns) M e = .ok (asExtra L c it (.obj d ns nss attrs)) := by
  have hD := sound_declared hL hf hs
  obtain ⟨e, he, h⟩ := C62_cycle hL hf hs ht hM hr strict
  refine ⟨e, he, ?_⟩
  rw [h, cycle_canonical hD.read (changes_normal hD.cycle _) _ ht hc ⟨_, _, _, _, rfl⟩, mapScalars_id]

/-- **C62.** The condition `Readable` of the round trip holds for objects in their default namespaces if the item
looks for its value where it is written. -/
theorem C62_readable (hL : Sound L) (hH : ∀ d, HomeOk L d) (hf : NewAttr L c it) (hs : Suitable L c it) (ha : AtHome L c it)
    {P : Pt F → Bool} {v : Val C F} (ht : Everywhere (fun d _ _ attrs => objOk (declared L c it) P d attrs = true) v)
    {N : NsMap} (h0 : nsGet N [] = []) (h1 : ∀ d, (L.info d).special = .kml → nsGet N (L.info d).nsid ≠ [])
    (hh : Everywhere (fun d ns nss _ => Home L N d ns nss) v)
    (hc : Everywhere (fun d ns nss attrs => Complete (declared L c it) d ns nss attrs) v) (o : Opts) :
    Everywhere (Readable (declared L c it) o N) v := by
  refine readable_sound (sound_declared hL hf hs) (fun d => homeOk_declared hs ha (hH d)) ht h0 (fun d hd => ?_) ?_ hc o
  · rw [special_declared] at hd
    rw [nsid_declared]
    exact h1 d hd
  · intro d ns nss attrs hin
    have := hh d ns nss attrs hin
    unfold Home at this ⊢
    rwa [nsid_declared]

/-! ## Classes that cannot be extended -/

/-- **C62**, disagreement: what is registered for a class whose `etree_element` does not use the
registry (`KML`) is never written. -/
theorem C62_kml (hk : ∀ d, Inherits L d c → (L.info d).special = .kml) (o : Opts) (v : Val C F) :
    ser (L.register c it) o v = ser L o v := by
  induction v using Val.objInd with
  | hother v hv => cases v <;> first | exact absurd rfl (hv _ _ _ _) | simp only [ser]
  | hobj d ns nss attrs ih1 ih2 =>
    have e : serAttrs (L.register c it) o attrs = serAttrs L o attrs := by
      rw [serAttrs_eq, serAttrs_eq]
      refine List.map_congr_left fun p hp => ?_
      obtain ⟨a, w⟩ := p
      rw [ih1 a w hp, truthy_register]
      congr 2
      cases w <;> simp only [serMembers, serList_eq]
      refine List.map_congr_left fun x hx => ?_
      rw [truthy_register, ih2 a _ hp x hx]
    rw [ser_obj, ser_obj, e]
    simp only [serStep]
    by_cases h : (L.info d).special = .kml
    · rw [if_pos h, if_pos (show ((L.register c it).info d).special = .kml from h)]
      rfl
    · rw [if_neg h, if_neg (show ¬ ((L.register c it).info d).special = .kml from h),
        itemsOf_register_other L c it fun hd => h (hk d hd)]
      rfl

/-- **C62**, disagreement: if the constructor accepts no further keyword arguments (the overlays), then
an element with the new attribute cannot be read. -/
theorem C62_overlay {d : C} (hd : Inherits L d c) (hkw : (L.info d).kwargs = false)
    (hkn : it.attr ∉ specialArgs (L.info d).special ++ (L.info d).slots.map Prod.fst)
    (hi : ∀ i ∈ L.itemsOf d, i.attr ≠ it.attr)
    (hs : scalar it.get = true) (hc : classesOk it = true) {strict : Bool} {ns : Option Str} {nss : NsMap} {e : Xml}
    (hv : firstValue (F := F) strict it (mergeNs nss) e it.nsIds ≠ none) (v : Val C F) :
    fromElement (L.register c it) strict d ns nss e ≠ .ok v := by
  intro h
  unfold fromElement at h
  rw [parse_eq] at h
  simp only [parseStep, mergeNs_idem] at h
  cases h1 : getKwargs (L.register c it) strict (mergeNs nss) e
      (kidsOf (parse (F := F) (L.register c it) strict) e.kids) ((L.register c it).itemsOf d) [] with
  | error x => rw [h1] at h; cases h
  | ok kw =>
    rw [h1] at h
    have hit : it ∈ (L.register c it).itemsOf d := mem_itemsOf_register.mpr (.inr ⟨rfl, hd⟩)
    obtain ⟨r, hr⟩ := getKwargs_each h1 it hit
    have hg := getKwargs_dget hr (items := (L.register c it).itemsOf d) (by
      intro i h2 ha
      rcases mem_itemsOf_register.mp h2 with h2 | ⟨h2, _⟩
      · exact absurd ha (hi i h2)
      · exact h2) (by intro _; rfl) (.inl hit) h1
    cases tryNs_scalar hs hc hr
    simp only [construct] at h
    rw [if_pos] at h
    · cases h
    · refine ⟨fun h3 => hv ?_, hkw⟩
      rw [← hg, ← dget_filter (q := fun a => decide (a ∉ specialArgs ((L.register c it).info d).special ++
        ((L.register c it).info d).slots.map Prod.fst)) (decide_eq_true hkn), h3]
      rfl

/-! ## fastkml -/

/-- The names of attributes that the library uses. -/
def usedNames : List Str :=
  builtin ++ Cls.all.flatMap fun d =>
    specialArgs (clsInfo d).special ++ (clsInfo d).slots.map Prod.fst ++ (fastkml.itemsOf d).map (·.attr) ++
      boolAttrs (clsInfo d).bool

/-- The classes from which an overlay inherits, and the overlays. -/
def closedClasses : List Cls :=
  [._XMLObject, ._BaseObject, ._Feature, ._Overlay, .PhotoOverlay, .GroundOverlay, .ScreenOverlay]

/-- fastkml can be extended with any attribute that has a new name, in all classes but seven. -/
theorem fresh_fastkml {c : Cls} {it : Item Cls} (hc : c ∉ closedClasses) (ha : it.attr ∉ usedNames) : NewAttr fastkml c it where
  builtin h := ha (List.mem_append_left _ h)
  kwargs d hd := by
    have key : ∀ d ∈ Cls.all, ∀ c ∈ (clsInfo d).mro, c ∉ closedClasses → (clsInfo d).kwargs = true := by decide +kernel
    exact key d (Cls.mem_all d) c hd hc
  known d _ h := ha (List.mem_append_right _ (List.mem_flatMap.mpr
    ⟨d, Cls.mem_all d, List.mem_append_left _ (List.mem_append_left _ h)⟩))
  items d _ i hi h := ha (List.mem_append_right _ (List.mem_flatMap.mpr
    ⟨d, Cls.mem_all d, List.mem_append_left _ (List.mem_append_right _ (List.mem_map.mpr ⟨i, hi, h⟩))⟩))
  bool d _ h := ha (List.mem_append_right _ (List.mem_flatMap.mpr ⟨d, Cls.mem_all d, List.mem_append_right _ h⟩))

theorem fastkml_sound : Sound fastkml where
  mro d := by
    have key : ∀ d ∈ Cls.all, (clsInfo d).mro.Nodup := by decide +kernel
    exact key d (Cls.mem_all d)
  read := fastkml_readOk
  write := fastkml_writeOk
  bool := fastkml_boolOk
  cycle := fastkml_cycleOk
  names := fastkml_namesOk

/-- The conditions of `Suitable`, for a list of all classes. -/
def suitableB (L : Lib C) (all : List C) (c : C) (it : Item C) : Bool :=
  decide (it.get ≠ .coordinates ∧ it.get ≠ .coordsList ∧ it.get ≠ .subDtList ∧ it.set = setOf it.get) && classesOk it &&
  dfltOk it && decide (it.get = .attrText → it.dflt = .none) && decide (it.nsIds ≠ []) && decide ('}' ∉ it.node) &&
  decide ((localNames L it).Nodup) && decide (∀ l ∈ localNames L it, '}' ∉ l) &&
  all.all fun d => decide (Inherits L d c → (L.info d).special ≠ .kml ∧ ∀ i ∈ L.itemsOf d,
    (∀ l ∈ localNames L it, l ∉ localNames L i) ∧
    (place it.get = .attr → place i.get = .attr → it.node ≠ i.node) ∧
    ¬ (place it.get = .text ∧ place i.get = .text))

theorem suitableB_sound {all : List C} (hall : ∀ d, d ∈ all) (h : suitableB L all c it = true) : Suitable L c it := by
  simp only [suitableB, Bool.and_eq_true, decide_eq_true_eq, List.all_eq_true] at h
  obtain ⟨⟨⟨⟨⟨⟨⟨⟨⟨h1, h2, h3, h4⟩, h5⟩, h6⟩, h7⟩, h8⟩, h9⟩, h10⟩, h11⟩, h12⟩ := h
  exact ⟨⟨h1, h2, h3⟩, h4, h5, h6, h7, h8, h9, ⟨h10, h11⟩, fun d hd => (h12 d (hall d) hd).1,
    fun d hd => (h12 d (hall d) hd).2⟩

/-- The conditions of `AtHome`, for a list of all classes. -/
def atHomeB (L : Lib C) (all : List C) (c : C) (it : Item C) : Bool :=
  decide (place it.get = .attr → [] ∈ it.nsIds) &&
  (all.all fun d => decide (place it.get = .child → Inherits L d c → (L.info d).nsid ∈ it.nsIds)) &&
  decide (it.get = .subDt → s% "kml" ∈ it.nsIds) &&
  decide (.enum .altitudeMode ∈ it.classes → s% "kml" ∈ it.nsIds ∧ s% "gx" ∈ it.nsIds) &&
  (all.all fun k => decide (.cls k ∈ it.classes → (place it.get = .object → (L.info k).nsid ∈ it.nsIds) ∧
    (place it.get = .objects → it.nsIds.head? = some (L.info k).nsid)))

theorem atHomeB_sound {all : List C} (hall : ∀ d, d ∈ all) (h : atHomeB L all c it = true) : AtHome L c it := by
  simp only [atHomeB, Bool.and_eq_true, decide_eq_true_eq, List.all_eq_true] at h
  obtain ⟨⟨⟨⟨h1, h2⟩, h3⟩, h4⟩, h5⟩ := h
  exact ⟨h1, fun hp d => h2 d (hall d) hp, h3, h4, fun k hk => (h5 k (hall k) hk).1, fun k hk => (h5 k (hall k) hk).2⟩

/-! ## Example: a number for placemarks -/

/-- A whole number in `<rating>`. -/
def ratingItem : Item Cls := ⟨[s% "kml"], [.int], s% "rating", .subInt, .subInt, s% "rating", .none⟩

theorem rating_fresh : NewAttr fastkml .Placemark ratingItem := fresh_fastkml (by decide +kernel) (by decide +kernel)

theorem rating_suitable : Suitable fastkml .Placemark ratingItem := suitableB_sound Cls.mem_all (by decide +kernel)

theorem rating_home : AtHome fastkml .Placemark ratingItem := atHomeB_sound Cls.mem_all (by decide +kernel)

/-- The library with the number. -/
def ratingLib : Lib Cls := fastkml.register .Placemark ratingItem

/-- A folder with placemarks, one of them rated. -/
def ratingXml (r : Str) : Xml :=
  .mk (kmlNs ++ s% "Folder") [] none
    [named kmlNs (s% "Placemark") (s% "p"),
     .mk (kmlNs ++ s% "Placemark") [] none [.leaf (kmlNs ++ s% "name") (s% "q"), .leaf (kmlNs ++ s% "rating") r]]

/-- The same as objects of the library in which the attribute is declared. -/
def ratingDoc (r : Val Cls Fix) : Val Cls Fix :=
  match fromElement (declared fastkml .Placemark ratingItem) true .Folder none [] (ratingXml (s% "5")) with
  | .ok v => mapObjects (fun _ attrs => attrs.map fun p => if p.1 = s% "rating" ∧ p.2 ≠ .none then (p.1, r) else p) v
  | .error _ => .none

/-- The class of an object. -/
def classOf : Val C F → Option C
  | .obj c _ _ _ => some c
  | _ => none

/-- The document is read, with the number, where fastkml reads it without. -/
example : fromElement ratingLib true .Folder none [] (ratingXml (s% "5")) =
      .ok (asExtra fastkml .Placemark ratingItem (ratingDoc (.int 5))) ∧
    fromElement fastkml true .Folder none [] (ratingXml (s% "5")) =
      .ok (forget fastkml .Placemark (s% "rating") (ratingDoc (.int 5))) ∧
    ratingDoc (.int 5) ≠ forget fastkml .Placemark (s% "rating") (ratingDoc (.int 5)) := by decide +kernel

/-- In lenient mode a text that is no number is ignored; in strict mode it is an error now. -/
example : quiet false ratingItem.get = true ∧ classesOk ratingItem = true ∧
    fromElement (F := Fix) ratingLib false .Folder none [] (ratingXml (s% "good")) =
      fromElement fastkml true .Folder none [] (ratingXml (s% "good")) ∧
    fromElement (F := Fix) ratingLib true .Folder none [] (ratingXml (s% "good")) = .error .parseError := by decide +kernel

/-- The hypotheses of the round trip are met. -/
example : Sound fastkml ∧ classOf (ratingDoc (.int (-7))) = some .Folder ∧
    typed (declared fastkml .Placemark ratingItem) dim23 (ratingDoc (.int (-7))) = true ∧
    Everywhere (Readable (declared fastkml .Placemark ratingItem) ⟨none, .normal⟩ (mergeNs [])) (ratingDoc (.int (-7))) ∧
    AllCanonical (declared fastkml .Placemark ratingItem) (mergeNs []) (ratingDoc (.int (-7))) := by
  refine ⟨fastkml_sound, by decide +kernel, by decide +kernel, ?_, ?_⟩
  · exact C62_readable fastkml_sound fastkml_homeOk rating_fresh rating_suitable rating_home (P := dim23)
      (everywhere_of (q := fun c _ _ attrs => objOk (declared fastkml .Placemark ratingItem) dim23 c attrs) (fun _ _ _ _ h => h)
        (by decide +kernel))
      (by decide +kernel) (fun d hd => by
        have key : ∀ d ∈ Cls.all, (fastkml.info d).special = .kml → nsGet (mergeNs []) (fastkml.info d).nsid ≠ [] := by
          decide +kernel
        exact key d (Cls.mem_all d) hd)
      (everywhere_of (q := fun c ns nss _ => homeB fastkml N0 c ns nss) (fun _ _ _ _ h => of_decide_eq_true h)
        (by decide +kernel))
      (everywhere_of (q := fun c _ _ attrs => completeB (declared fastkml .Placemark ratingItem) c attrs)
        (fun _ _ _ _ h => completeB_sound h) (by decide +kernel)) _
  · exact everywhere_of (q := fun c _ nss attrs => canonicalB (declared fastkml .Placemark ratingItem) N0 c nss attrs)
      (fun _ _ _ _ h => canonicalB_sound h) (by decide +kernel)

/-! ## Example: an element in another namespace -/

/-- `<gx:balloonVisibility>`, an element of Google's extension that fastkml does not read. -/
def balloonItem : Item Cls :=
  ⟨[s% "gx"], [.bool], s% "balloon_visibility", .subBool, .subBool, s% "balloonVisibility", .none⟩

theorem balloon_fresh : NewAttr fastkml .Placemark balloonItem := fresh_fastkml (by decide +kernel) (by decide +kernel)

theorem balloon_suitable : Suitable fastkml .Placemark balloonItem := suitableB_sound Cls.mem_all (by decide +kernel)

/-- The library with this element. -/
def balloonLib : Lib Cls := fastkml.register .Placemark balloonItem

def balloonXml : Xml := .mk (kmlNs ++ s% "Placemark") [] none [.leaf (gxNs ++ s% "balloonVisibility") (s% "1")]

/-- **C62**, disagreement: an element that is looked for in another namespace than that of its class is read, but
written in the namespace of the class, and not found there again. -/
theorem C62_foreign :
    attrOfResult (s% "balloon_visibility") (fromElement balloonLib true .Placemark none [] balloonXml) = some (.bool true) ∧
    ((fromElement (F := Fix) balloonLib true .Placemark none [] balloonXml).bind (ser balloonLib ⟨none, .normal⟩)).map
      (fun e => e.kids.map Xml.tag) = .ok [kmlNs ++ s% "balloonVisibility"] ∧
    attrOfResult (s% "balloon_visibility") (((fromElement (F := Fix) balloonLib true .Placemark none [] balloonXml).bind
      (ser balloonLib ⟨none, .normal⟩)).bind (fromElement balloonLib true .Placemark none [])) = some .none := by
  decide +kernel

/-! ## Example: overlays and `KML` -/

/-- The classes whose constructors accept no further keyword arguments. -/
theorem C62_no_kwargs (d : Cls) : (clsInfo d).kwargs = false ↔ d ∈ [.PhotoOverlay, .GroundOverlay, .ScreenOverlay, ._Overlay] := by
  have key : ∀ d ∈ Cls.all, ((clsInfo d).kwargs = false ↔ d ∈ [.PhotoOverlay, .GroundOverlay, .ScreenOverlay, ._Overlay]) := by
    decide +kernel
  exact key d (Cls.mem_all d)

/-- A number for all features: an overlay that has it cannot be read. -/
example : fromElement (F := Fix) (fastkml.register ._Feature ratingItem) false .GroundOverlay none []
      (.mk (kmlNs ++ s% "GroundOverlay") [] none [.leaf (kmlNs ++ s% "rating") (s% "5")]) = .error .typeError ∧
    Inherits fastkml .GroundOverlay ._Feature ∧
    firstValue (F := Fix) false ratingItem (mergeNs [])
      (.mk (kmlNs ++ s% "GroundOverlay") [] none [.leaf (kmlNs ++ s% "rating") (s% "5")]) ratingItem.nsIds ≠ none ∧
    (∀ i ∈ fastkml.itemsOf .GroundOverlay, i.attr ≠ ratingItem.attr) ∧
    ratingItem.attr ∉ specialArgs (clsInfo .GroundOverlay).special ++ (clsInfo .GroundOverlay).slots.map Prod.fst := by
  decide +kernel

/-- The only class that inherits from `KML` is `KML`, which does not use the registry when it is written. -/
theorem kml_special (d : Cls) (h : Inherits fastkml d .KML) : (fastkml.info d).special = .kml := by
  have key : ∀ d ∈ Cls.all, Inherits fastkml d .KML → (fastkml.info d).special = .kml := by decide +kernel
  exact key d (Cls.mem_all d) h

end Verif
