import Verif.Lemmas.Reading
import Verif.Lemmas.Names
import Verif.ExtInst

/-!
# C08–C11, C14, C47, C48: what reading depends on and what it returns
-/

set_option linter.unusedSectionVars false
set_option linter.unusedSimpArgs false

namespace Verif

open Spec

variable {F : Type} [PyExt F]

theorem fastkml_classesOk (c : Cls) : ∀ it ∈ fastkml.itemsOf c, classesOk it = true :=
  (fastkml_readOk c).classes

/-! ## C09 -/

/-- **C09.** Elements with the same relevant content (see `Spec.Agree`) are read
alike, as any class, in both modes, with any namespace mapping. -/
theorem C09_content (strict : Bool) (c : Cls) (ns : Str) (nss : NsMap) (e e' : Xml)
    (h : Agree sameText fastkml (mergeNs nss) c e e') :
    parse (F := F) fastkml strict e c ns nss = parse fastkml strict e' c ns nss :=
  agree_parse (textOk_same strict) fastkml_classesOk h ns nss rfl

theorem find_insert {t tag : Str} {a : List (Str × Str)} {x : Option Str} {pre post : List Xml} {k : Xml}
    (h : k.tag ≠ tag) : (Xml.mk t a x (pre ++ k :: post)).find tag = (Xml.mk t a x (pre ++ post)).find tag := by
  simp [Xml.find, Xml.kids, List.find?_append, List.find?_cons, h]

theorem findall_insert {t tag : Str} {a : List (Str × Str)} {x : Option Str} {pre post : List Xml} {k : Xml}
    (h : k.tag ≠ tag) :
    (Xml.mk t a x (pre ++ k :: post)).findall tag = (Xml.mk t a x (pre ++ post)).findall tag := by
  simp [Xml.findall, Xml.kids, List.filter_append, List.filter_cons, h]

/-- **C09**: a child that no item of the class looks for is irrelevant. -/
theorem C09_unknown_child (strict : Bool) (c : Cls) (ns : Str) (nss : NsMap) (t : Str)
    (a : List (Str × Str)) (x : Option Str) (pre post : List Xml) (k : Xml)
    (h1 : ¬ SingleTag fastkml (mergeNs nss) c k.tag) (h2 : ¬ ListTag fastkml (mergeNs nss) c k.tag) :
    parse (F := F) fastkml strict (.mk t a x (pre ++ k :: post)) c ns nss =
      parse fastkml strict (.mk t a x (pre ++ post)) c ns nss := by
  refine C09_content _ _ _ _ _ _ (agree_of_lookup (fun _ _ => rfl) rfl (fun _ _ => rfl) ?_ ?_)
  · intro tag ht; exact find_insert (by rintro rfl; exact h1 ht)
  · intro tag ht; exact findall_insert (by rintro rfl; exact h2 ht)

/-- **C09**: an XML attribute that no item of the class looks for is irrelevant. -/
theorem C09_unknown_attribute (strict : Bool) (c : Cls) (ns : Str) (nss : NsMap) (t : Str)
    (pre post : List (Str × Str)) (key val : Str) (x : Option Str) (ks : List Xml)
    (h : ¬ AttrKey fastkml (mergeNs nss) c key) :
    parse (F := F) fastkml strict (.mk t (pre ++ (key, val) :: post) x ks) c ns nss =
      parse fastkml strict (.mk t (pre ++ post) x ks) c ns nss := by
  refine C09_content _ _ _ _ _ _ (agree_of_lookup (fun _ _ => rfl) rfl ?_ (fun _ _ => rfl) (fun _ _ => rfl))
  intro k hk
  have : key ≠ k := by rintro rfl; exact h hk
  simp [Xml.get, Xml.attrs, dget_append, dget, this]

/-- **C09**: the order of neighbouring children with different names is irrelevant
(any reordering that keeps the order per name is a sequence of such swaps). -/
theorem C09_order (strict : Bool) (c : Cls) (ns : Str) (nss : NsMap) (t : Str)
    (a : List (Str × Str)) (x : Option Str) (pre post : List Xml) (k k' : Xml) (h : k.tag ≠ k'.tag) :
    parse (F := F) fastkml strict (.mk t a x (pre ++ k :: k' :: post)) c ns nss =
      parse fastkml strict (.mk t a x (pre ++ k' :: k :: post)) c ns nss := by
  refine C09_content _ _ _ _ _ _ (agree_of_lookup (fun _ _ => rfl) rfl (fun _ _ => rfl) ?_ ?_)
  · intro tag _
    simp only [Xml.find, Xml.kids, List.find?_append, List.find?_cons]
    by_cases h1 : k.tag = tag
    · have : k'.tag ≠ tag := by rintro rfl; exact h h1
      simp [h1, this]
    · by_cases h2 : k'.tag = tag <;> simp [h1, h2]
  · intro tag _
    simp only [Xml.findall, Xml.kids, List.filter_append, List.filter_cons]
    by_cases h1 : k.tag = tag
    · have : k'.tag ≠ tag := by rintro rfl; exact h h1
      simp [h1, this]
    · by_cases h2 : k'.tag = tag <;> simp [h1, h2]

/-- A child of the KML namespace. -/
def kmlChild (l text : Str) : Xml := .leaf (s% "{http://www.opengis.net/kml/2.2}" ++ l) text

/-- An unknown child and swapped children, for a placemark. -/
example (strict : Bool) :
    parse (F := F) fastkml strict (.mk (s% "Placemark") [] none
      [kmlChild (s% "name") (s% "a"), .leaf (s% "bogus") (s% "b"), kmlChild (s% "address") (s% "c")])
      .Placemark [] [] =
    parse fastkml strict (.mk (s% "Placemark") [] none
      [kmlChild (s% "address") (s% "c"), kmlChild (s% "name") (s% "a")]) .Placemark [] [] := by
  have h1 : ¬ SingleTag fastkml (mergeNs []) .Placemark (Xml.leaf (s% "bogus") (s% "b")).tag := by
    have : ∀ it ∈ fastkml.itemsOf Cls.Placemark, ∀ id ∈ it.nsIds,
      s% "bogus" ≠ nsGet (mergeNs []) id ++ it.node ∧ ∀ d ∈ Cls.all,
        .cls d ∈ it.classes → s% "bogus" ≠ nsGet (mergeNs []) id ++ (fastkml.info d).tag := by decide +kernel
    rintro ⟨it, hit, id, hid, ⟨_, h⟩ | ⟨_, d, hd, h⟩⟩
    · exact (this it hit id hid).1 h
    · exact (this it hit id hid).2 d (Cls.mem_all d) hd h
  have h2 : ¬ ListTag fastkml (mergeNs []) .Placemark (Xml.leaf (s% "bogus") (s% "b")).tag := by
    have : ∀ it ∈ fastkml.itemsOf Cls.Placemark, ∀ id ∈ it.nsIds,
      s% "bogus" ≠ nsGet (mergeNs []) id ++ it.node ∧ ∀ d ∈ Cls.all,
        .cls d ∈ it.classes → s% "bogus" ≠ nsGet (mergeNs []) id ++ (fastkml.info d).tag := by decide +kernel
    rintro ⟨it, hit, id, hid, ⟨_, h⟩ | ⟨_, d, hd, h⟩⟩
    · exact (this it hit id hid).1 h
    · exact (this it hit id hid).2 d (Cls.mem_all d) hd h
  exact (C09_unknown_child strict .Placemark [] [] _ _ _ [kmlChild (s% "name") (s% "a")]
    [kmlChild (s% "address") (s% "c")] _ h1 h2).trans
    (C09_order strict .Placemark [] [] _ _ _ [] [] _ _ (by decide))

/-! ## C10 -/

/-- **C10.** Later occurrences of a single-valued child have no effect: `k'` has the
same name as the earlier `k`, and no list-valued item looks for that name. -/
theorem C10_first (strict : Bool) (c : Cls) (ns : Str) (nss : NsMap) (t : Str)
    (a : List (Str × Str)) (x : Option Str) (pre mid post : List Xml) (k k' : Xml) (h : k'.tag = k.tag)
    (hl : ¬ ListTag fastkml (mergeNs nss) c k.tag) :
    parse (F := F) fastkml strict (.mk t a x (pre ++ k :: mid ++ k' :: post)) c ns nss =
      parse fastkml strict (.mk t a x (pre ++ k :: mid ++ post)) c ns nss := by
  refine C09_content _ _ _ _ _ _ (agree_of_lookup (fun _ _ => rfl) rfl (fun _ _ => rfl) ?_ ?_)
  · intro tag _
    by_cases h1 : k'.tag = tag
    · have h2 : k.tag = tag := by rw [← h]; exact h1
      simp [Xml.find, Xml.kids, List.find?_append, List.find?_cons, h2]
    · exact find_insert h1
  · intro tag ht
    refine findall_insert ?_
    rintro rfl
    rw [h] at ht
    exact hl ht

/-- The children that are read as lists: only these may meaningfully be repeated. -/
def listNames : List Str :=
  [s% "LineStyle", s% "PolyStyle", s% "LabelStyle", s% "IconStyle", s% "BalloonStyle", s% "Pair",
   s% "SimpleField", s% "SimpleData", s% "Data", s% "SchemaData", s% "innerBoundaryIs", s% "Point",
   s% "LineString", s% "Polygon", s% "LinearRing", s% "MultiGeometry", s% "Track", s% "Alias",
   s% "Style", s% "StyleMap", s% "Folder", s% "Document", s% "Placemark", s% "GroundOverlay",
   s% "PhotoOverlay", s% "ScreenOverlay", s% "NetworkLink", s% "NetworkLinkControl", s% "Schema", s% "when", s% "coord", s% "angles"]

theorem fastkml_listNames (c : Cls) : ∀ it ∈ fastkml.itemsOf c,
    place it.get = .children ∨ place it.get = .objects → ∀ l ∈ localNames fastkml it, l ∈ listNames := by
  have : ∀ c ∈ Cls.all, ∀ it ∈ fastkml.itemsOf c,
    place it.get = .children ∨ place it.get = .objects → ∀ l ∈ localNames fastkml it, l ∈ listNames := by
    decide +kernel
  exact this c (Cls.mem_all c)

/-- **C10** for all other names, in whatever namespaces of the form `{uri}`. -/
theorem C10_names (strict : Bool) (c : Cls) (ns : Str) (nss : NsMap) (hns : NsOk nss) (t : Str)
    (a : List (Str × Str)) (x : Option Str) (pre mid post : List Xml) (k k' : Xml) (h : k'.tag = k.tag)
    (n l : Str) (hn : NsForm n) (hk : k.tag = n ++ l) (hb : '}' ∉ l) (hl : l ∉ listNames) :
    parse (F := F) fastkml strict (.mk t a x (pre ++ k :: mid ++ k' :: post)) c ns nss =
      parse fastkml strict (.mk t a x (pre ++ k :: mid ++ post)) c ns nss := by
  refine C10_first strict c ns nss t a x pre mid post k k' h ?_
  have hN := nsOk_merge hns
  rintro ⟨it, hit, id, hid, hp⟩
  have key : ∃ l' ∈ localNames fastkml it, k.tag = nsGet (mergeNs nss) id ++ l' ∧
      (place it.get = .children ∨ place it.get = .objects) := by
    rcases hp with ⟨hp, he⟩ | ⟨hp, d, hd, he⟩
    · exact ⟨it.node, by simp [localNames, hp], he, Or.inl hp⟩
    · refine ⟨(fastkml.info d).tag, ?_, he, Or.inr hp⟩
      simp only [localNames, hp, List.mem_filterMap]
      exact ⟨.cls d, hd, rfl⟩
  obtain ⟨l', hl', he, hpl⟩ := key
  rw [hk] at he
  obtain ⟨_, rfl⟩ := tag_inj hn (nsGet_form hN id) hb ((fastkml_namesOk c).names it hit l' hl') he
  exact hl (fastkml_listNames c it hit hpl _ hl')

/-- A second name does not count. -/
example (strict : Bool) :
    parse (F := F) fastkml strict (.mk (s% "Placemark") [] none
      [kmlChild (s% "name") (s% "a"), kmlChild (s% "name") (s% "b")]) .Placemark [] [] =
    parse fastkml strict (.mk (s% "Placemark") [] none [kmlChild (s% "name") (s% "a")]) .Placemark [] [] :=
  C10_names strict .Placemark [] [] (fun _ h => by cases h) _ _ _ [] [] [] _ _ rfl
    (s% "{http://www.opengis.net/kml/2.2}") (s% "name")
    (Or.inr ⟨s% "{http://www.opengis.net/kml/2.2", rfl⟩) rfl (by decide) (by decide)

/-! ## C08, C14: the values -/

/-- `id` and `target_id` (but not the id of a `Schema`) are identifiers. -/
def Spec.ident (c : Cls) (it : Item Cls) : Bool :=
  decide (it.attr = s% "id" ∨ it.attr = s% "target_id") && decide (it.get = .attrText) &&
    decide (c ≠ .Schema ∨ it.attr ≠ s% "id")

/-- How the constructor stores a scalar. -/
def scalarSlotOk (c : Cls) (it : Item Cls) : Bool :=
  !scalar it.get || (fastkml.info c).slots.any fun s => decide (s.1 = it.attr) &&
    (if ident c it then decide (s.2 = .orEmpty)
     else match it.get with
      | .nodeText | .subText | .attrText => decide (s.2 = .clean)
      | .subEnum | .attrEnum => decide (s.2 = .raw) || decide (s.2 = .orNone)
      | _ => decide (s.2 = .raw))

theorem fastkml_scalarSlot (c : Cls) : ∀ it ∈ fastkml.itemsOf c, scalarSlotOk c it = true := by
  have : ∀ c ∈ Cls.all, ∀ it ∈ fastkml.itemsOf c, scalarSlotOk c it = true := by decide +kernel
  exact this c (Cls.mem_all c)

theorem denotes_str {strict : Bool} {it : Item Cls} {t : Str} {v : Val Cls F}
    (h : denotes strict it t = some v) :
    (it.get = .nodeText ∨ it.get = .subText ∨ it.get = .attrText) ∧ v = .str t ∨
    (it.get ≠ .nodeText ∧ it.get ≠ .subText ∧ it.get ≠ .attrText ∧ (∀ s, v ≠ .str s) ∧ v ≠ .none ∧
      ((it.get = .subEnum ∨ it.get = .attrEnum) → ∃ e x, v = .enum e x)) := by
  unfold denotes at h
  cases hg : it.get <;> rw [hg] at h <;> simp only at h
  all_goals first
    | (simp at h; subst h; left; simp)
    | (cases h; done)
    | (right
       rw [Option.map_eq_some_iff] at h
       obtain ⟨a, _, rfl⟩ := h
       simp)
    | (right
       split at h
       · rw [Option.map_eq_some_iff] at h
         obtain ⟨a, _, rfl⟩ := h
         simp
       · cases h)

/-- The values that a scalar item can find. -/
theorem firstValue_some {strict : Bool} {it : Item Cls} {N : NsMap} {e : Xml} {ids : List Str}
    {v : Val Cls F} (h : firstValue strict it N e ids = some v) : ∃ t, denotes strict it t = some v := by
  induction ids with
  | nil => cases h
  | cons id ids ih =>
    simp only [firstValue] at h
    split at h
    · exact ih h
    · split at h
      · exact ih h
      · rename_i w hw
        cases h
        exact ⟨_, hw⟩

theorem normalise_scalar {c : Cls} {it : Item Cls} (hs : scalar it.get = true)
    {n : Norm} (hn : (it.attr, n) ∈ (fastkml.info c).slots) (hit : it ∈ fastkml.itemsOf c)
    {strict : Bool} {o : Option (Val Cls F)} (ho : ∀ v, o = some v → ∃ t, denotes strict it t = some v)
    {w : Val Cls F} (h : normalise fastkml n (o.getD .none) = .ok w) : w = stored (ident c it) o := by
  have hsl := fastkml_scalarSlot c it hit
  simp only [scalarSlotOk, hs, Bool.not_true, Bool.false_or, List.any_eq_true, Bool.and_eq_true,
    decide_eq_true_eq] at hsl
  obtain ⟨⟨a, m⟩, hm, ha, hcond⟩ := hsl
  simp only at ha hcond
  subst ha
  have hk := (fastkml_readOk c).known
  rw [List.nodup_append] at hk
  have : ((it.attr, n) : Str × Norm) = (it.attr, m) := injOn_of_nodup_map hk.2.1 hn hm rfl
  cases this
  cases o with
  | none =>
    simp only [Option.getD_none] at h
    simp only [stored]
    split at hcond
    · rename_i hi
      simp only [decide_eq_true_eq] at hcond
      subst hcond
      simp [normalise] at h
      rw [hi, ← h]; rfl
    · rename_i hi
      have hi' : ident c it = false := by simpa using hi
      rw [hi']
      have hn' : n = .clean ∨ n = .raw ∨ n = .orNone := by
        split at hcond <;> simp at hcond <;> first
          | exact Or.inl hcond
          | exact Or.inr (Or.inl hcond)
          | (rcases hcond with h | h
             · exact Or.inr (Or.inl h)
             · exact Or.inr (Or.inr h))
      rcases hn' with rfl | rfl | rfl
      · simp [normalise] at h; exact h.symm
      · simp [normalise] at h; exact h.symm
      · simp [normalise, truthy, info, Info.plain] at h; exact h.symm
  | some v =>
    simp only [Option.getD_some] at h
    obtain ⟨t, ht⟩ := ho v rfl
    rcases denotes_str ht with ⟨hg, rfl⟩ | ⟨h1, h2, h3, h4, h5, h6⟩
    · split at hcond
      · rename_i hi
        simp only [decide_eq_true_eq] at hcond
        subst hcond
        simp [normalise] at h
        rw [hi, ← h]; rfl
      · rename_i hi
        have hi' : ident c it = false := by simpa using hi
        have : n = .clean := by
          rcases hg with hg | hg | hg <;> rw [hg] at hcond <;> simpa using hcond
        subst this
        simp only [normalise, Except.ok.injEq] at h
        rw [cleanString_trimmed] at h
        rw [← h, hi']
        rfl
    · have hi' : ident c it = false := by simp [ident, h3]
      rw [hi'] at hcond ⊢
      simp only [Bool.false_eq_true, if_false] at hcond
      have hst : stored false (some v) = v := by cases v <;> first | rfl | exact absurd rfl (h4 _)
      rw [hst]
      by_cases hraw : n = .raw
      · subst hraw; simp [normalise] at h; exact h.symm
      · have hen : (it.get = .subEnum ∨ it.get = .attrEnum) ∧ n = .orNone := by
          split at hcond <;> simp_all
        obtain ⟨e, x, rfl⟩ := h6 hen.1
        rw [hen.2] at h
        simp [normalise, truthy, info, Info.plain] at h
        exact h.symm

/-- **C14** (scalars).  After a successful reading a scalar attribute holds the
value in the first of its namespaces that has a meaningful text, stored as
described by `Spec.stored`; if there is none it is unset. -/
theorem C14_scalar (strict : Bool) (e : Xml) (c : Cls) (ns : Str) (nss : NsMap) (c' : Cls) (ns' : Str)
    (nss' : NsMap) (attrs : List (Str × Val Cls F))
    (h : parse fastkml strict e c ns nss = .ok (.obj c' ns' nss' attrs))
    (it : Item Cls) (hit : it ∈ fastkml.itemsOf c) (hs : scalar it.get = true) :
    Spec.attr it.attr attrs = stored (ident c it) (firstValue strict it (mergeNs nss) e it.nsIds) := by
  have hR := fastkml_readOk c
  obtain ⟨n, hn, hnm⟩ := slotOk_slot (hR.slots it hit) (by intro hg; simp [scalar, hg, place] at hs)
    (by intro hg; simp [scalar, hg, place] at hs)
  obtain ⟨o, ho, hno⟩ := parse_attr hR h hit hn
  have ho' := tryNs_scalar hs (hR.classes it hit) ho
  subst ho'
  exact normalise_scalar hs hn hit (fun v hv => firstValue_some hv) hno

/-- **C08.** If strict reading succeeds, then the text of a scalar attribute (in the
first namespace that has one) was convertible, and the attribute is its value. -/
theorem C08_strict (e : Xml) (c : Cls) (ns : Str) (nss : NsMap) (c' : Cls) (ns' : Str)
    (nss' : NsMap) (attrs : List (Str × Val Cls F))
    (h : parse fastkml true e c ns nss = .ok (.obj c' ns' nss' attrs))
    (it : Item Cls) (hit : it ∈ fastkml.itemsOf c) (hs : scalar it.get = true)
    (pre post : List Str) (id t : Str) (hids : it.nsIds = pre ++ id :: post)
    (hpre : ∀ i ∈ pre, itemText it (nsGet (mergeNs nss) i) e = none)
    (ht : itemText it (nsGet (mergeNs nss) id) e = some t) :
    ∃ v, denotes true it t = some v ∧ Spec.attr it.attr attrs = stored (ident c it) (some v) := by
  have hR := fastkml_readOk c
  obtain ⟨n, hn, hnm⟩ := slotOk_slot (hR.slots it hit) (by intro hg; simp [scalar, hg, place] at hs)
    (by intro hg; simp [scalar, hg, place] at hs)
  obtain ⟨o, ho, hno⟩ := parse_attr hR h hit hn
  obtain ⟨v, hv, rfl⟩ := tryNs_scalar_strict hs (hR.classes it hit) ho hids hpre ht
  exact ⟨v, hv, normalise_scalar hs hn hit (strict := true) (fun w hw => by cases hw; exact ⟨t, hv⟩) hno⟩

/-- The attribute of a result. -/
def attrOfResult (a : Str) (v : Except Err (Val Cls Fix)) : Option (Val Cls Fix) :=
  match v with
  | .ok (.obj _ _ _ attrs) => some (Spec.attr a attrs)
  | _ => none

/-- Is it the boolean `b`? -/
def isBool (b : Bool) : Option (Val Cls Fix) → Bool
  | some (.bool c) => b == c
  | _ => false

/-- Is it the text `t`? -/
def isStr (t : Str) : Option (Val Cls Fix) → Bool
  | some (.str s) => decide (s = t)
  | _ => false

/-- Non-vacuity of C08: a strict reading that succeeds and finds a boolean. -/
example : isBool true (attrOfResult (s% "visibility") (parse fastkml true
    (.mk (s% "Placemark") [] none [kmlChild (s% "visibility") (s% " 1 ")]) .Placemark [] [])) = true := by
  decide +kernel

/-- **C14** (objects).  After a successful reading a single-object attribute is the
reading of the first child with the name of the first of the classes, in the first
of the namespaces that has such a child; it is `None` iff there is none. -/
theorem C14_object (strict : Bool) (e : Xml) (c : Cls) (ns : Str) (nss : NsMap) (c' : Cls) (ns' : Str)
    (nss' : NsMap) (attrs : List (Str × Val Cls F))
    (h : parse fastkml strict e c ns nss = .ok (.obj c' ns' nss' attrs))
    (it : Item Cls) (hit : it ∈ fastkml.itemsOf c) (hs : it.get = .xmlSub) :
    (Spec.attr it.attr attrs = .none ∧ ∀ id ∈ it.nsIds, ∀ d, .cls d ∈ it.classes →
      e.find (nsGet (mergeNs nss) id ++ (fastkml.info d).tag) = none) ∨
    ∃ pre id post cpre d cpost k, it.nsIds = pre ++ id :: post ∧ it.classes = cpre ++ .cls d :: cpost ∧
      (∀ i ∈ pre, ∀ d', .cls d' ∈ it.classes →
        e.find (nsGet (mergeNs nss) i ++ (fastkml.info d').tag) = none) ∧
      (∀ d', .cls d' ∈ cpre → e.find (nsGet (mergeNs nss) id ++ (fastkml.info d').tag) = none) ∧
      e.find (nsGet (mergeNs nss) id ++ (fastkml.info d).tag) = some k ∧
      parse fastkml strict k d (nsGet (mergeNs nss) id) (mergeNs nss) = .ok (Spec.attr it.attr attrs) := by
  have hR := fastkml_readOk c
  obtain ⟨n, hn, hnm⟩ := slotOk_slot (hR.slots it hit) (by rw [hs]; simp) (by rw [hs]; simp)
  have hraw : n = .raw := by
    have : ∀ c ∈ Cls.all, ∀ it ∈ fastkml.itemsOf c, it.get = .xmlSub →
      ∀ n ∈ (fastkml.info c).slots, n.1 = it.attr → n.2 = .raw := by decide +kernel
    exact this c (Cls.mem_all c) it hit hs _ hn rfl
  subst hraw
  obtain ⟨o, ho, hno⟩ := parse_attr hR h hit hn
  simp only [normalise, Except.ok.injEq] at hno
  have hgk : ∀ m, getKwarg fastkml it strict m (mergeNs nss) e (kidsOf (parse (F := F) fastkml strict) e.kids) =
      getXmlSub fastkml (kidsOf (parse fastkml strict) e.kids) m (mergeNs nss) it.classes := by
    intro m; simp only [getKwarg, hs]
  cases o with
  | none =>
    left
    refine ⟨hno.symm, ?_⟩
    intro id hid
    have := tryNs_none.mp ho id hid
    rw [hgk] at this
    rcases getXmlSub_iff this with ⟨_, h⟩ | ⟨_, _, _, _, _, _, _, _, _, h⟩
    · exact h
    · cases h
  | some v =>
    right
    obtain ⟨pre, id, post, h1, h2, h3⟩ := tryNs_some.mp ho
    rw [hgk] at h3
    rcases getXmlSub_iff h3 with ⟨h, _⟩ | ⟨cpre, d, cpost, k, w, g1, g2, g3, g4, g5⟩
    · cases h
    · cases g5
      refine ⟨pre, id, post, cpre, d, cpost, k, h1, g1, ?_, g2, g3, ?_⟩
      · intro i hi
        have := h2 i hi
        rw [hgk] at this
        rcases getXmlSub_iff this with ⟨_, h⟩ | ⟨_, _, _, _, _, _, _, _, _, h⟩
        · exact h
        · cases h
      · rw [show Spec.attr it.attr attrs = v from hno.symm]; exact g4

/-- **C11, C14** (lists).  After a successful reading a list attribute contains,
class by class in the registered order, the readings of all children with the name
of the class, in document order; for `ExtendedData` and `MultiTrack` only the
non-empty ones.  Only the first namespace of the item is searched. -/
theorem C11_list (strict : Bool) (e : Xml) (c : Cls) (ns : Str) (nss : NsMap) (c' : Cls) (ns' : Str)
    (nss' : NsMap) (attrs : List (Str × Val Cls F))
    (h : parse fastkml strict e c ns nss = .ok (.obj c' ns' nss' attrs))
    (it : Item Cls) (hit : it ∈ fastkml.itemsOf c) (hs : it.get = .xmlSubList) :
    ∃ (id : Str) (ids : List Str) (vss : List (List (Val Cls F))), it.nsIds = id :: ids ∧
      All2 (fun t vs => ∃ d, t = .cls d ∧
        All2 (fun k v => parse fastkml strict k d (nsGet (mergeNs nss) id) (mergeNs nss) = .ok v)
          (e.findall (nsGet (mergeNs nss) id ++ (fastkml.info d).tag)) vs) it.classes vss ∧
      Spec.attr it.attr attrs = .list (if c = .ExtendedData ∨ c = .MultiTrack then
        vss.flatten.filter (nonEmpty fastkml) else vss.flatten) := by
  have hR := fastkml_readOk c
  obtain ⟨n, hn, hnm⟩ := slotOk_slot (hR.slots it hit) (by rw [hs]; simp) (by rw [hs]; simp)
  have hlist : if c = .ExtendedData ∨ c = .MultiTrack then n = .listTruthy else n = .listOr ∨ n = .listNotNone := by
    have : ∀ c ∈ Cls.all, ∀ it ∈ fastkml.itemsOf c, it.get = .xmlSubList →
      ∀ n ∈ (fastkml.info c).slots, n.1 = it.attr →
      if c = .ExtendedData ∨ c = .MultiTrack then n.2 = .listTruthy else n.2 = .listOr ∨ n.2 = .listNotNone := by
      decide +kernel
    exact this c (Cls.mem_all c) it hit hs _ hn rfl
  obtain ⟨o, ho, hno⟩ := parse_attr hR h hit hn
  cases hids : it.nsIds with
  | nil => exact absurd hids ((fastkml_namesOk c).ids it hit)
  | cons id ids =>
    rw [hids] at ho
    simp only [tryNs, getKwarg, hs] at ho
    split at ho
    · cases ho
    · rename_i w hw
      split at hw
      · cases hw
      · rename_i vs hvs
        simp at hw; subst hw
        simp at ho; subst ho
        obtain ⟨vss, h1, rfl⟩ := getXmlSubList_iff hvs
        refine ⟨id, ids, vss, rfl, h1, ?_⟩
        simp only [Option.getD_some] at hno
        rw [attr_eq]
        split at hlist
        · rename_i hc
          subst hlist
          simp only [normalise] at hno
          split at hno
          · cases hno
          · rename_i l hl
            simp at hno
            rw [← hno, keepTruthy_filter hl, if_pos hc]
        · rename_i hc
          rw [if_neg hc]
          rcases hlist with rfl | rfl <;> simp [normalise] at hno <;> exact hno.symm
    · rename_i hw
      split at hw <;> cases hw

/-- The classes of a list item are distinct and have distinct names, so every child
is read by exactly one of them. -/
theorem C11_classes (c : Cls) (it : Item Cls) (hit : it ∈ fastkml.itemsOf c) (hs : it.get = .xmlSubList) :
    it.classes.Nodup ∧ (localNames fastkml it).Nodup ∧ ∀ t ∈ it.classes, ∃ d, t = .cls d := by
  have : ∀ c ∈ Cls.all, ∀ it ∈ fastkml.itemsOf c, it.get = .xmlSubList →
      it.classes.Nodup ∧ (localNames fastkml it).Nodup ∧ it.classes.all (fun t => match t with
        | .cls _ => true | _ => false) = true := by decide +kernel
  obtain ⟨h1, h2, h3⟩ := this c (Cls.mem_all c) it hit hs
  refine ⟨h1, h2, ?_⟩
  intro t ht
  have := List.all_eq_true.mp h3 t ht
  cases t <;> first | exact ⟨_, rfl⟩ | cases this

/-- Names of the features of a container, in order. -/
def featureNames (v : Except Err (Val Cls Fix)) : List Str :=
  match v with
  | .ok (.obj _ _ _ attrs) => match Spec.attr (s% "features") attrs with
    | .list l => l.map fun f => match f with
      | .obj _ _ _ as => match Spec.attr (s% "name") as with
        | .str s => s
        | _ => []
      | _ => []
    | _ => []
  | _ => []

/-- A folder or placemark with a name, in a given namespace. -/
def named (ns cls name : Str) : Xml := .mk (ns ++ cls) [] none [.leaf (ns ++ s% "name") name]

/-- The KML namespace. -/
def kmlNs : Str := s% "{http://www.opengis.net/kml/2.2}"

/-- **C11**, disagreement: document order between features of different classes is
not kept. -/
theorem C11_not_document_order :
    featureNames (fromElement fastkml true .Folder none [] (.mk (kmlNs ++ s% "Folder") [] none
      [named kmlNs (s% "Placemark") (s% "a"), named kmlNs (s% "Folder") (s% "b"),
       named kmlNs (s% "Placemark") (s% "c")])) = [s% "b", s% "a", s% "c"] := by decide +kernel

/-- **C14**, disagreement: the name of an un-namespaced folder is found, its
features are lost. -/
theorem C14_lists_lost :
    isStr (s% "f") (attrOfResult (s% "name") (fromElement fastkml true .Folder (some []) []
      (.mk (s% "Folder") [] none [.leaf (s% "name") (s% "f"), named [] (s% "Placemark") (s% "a")]))) = true ∧
    featureNames (fromElement fastkml true .Folder (some []) [] (.mk (s% "Folder") [] none
      [.leaf (s% "name") (s% "f"), named [] (s% "Placemark") (s% "a")])) = [] :=
  ⟨by decide +kernel, by decide +kernel⟩

/-- **C14**: a scalar child in a later namespace of the item is read as in an earlier
one: moving the only text from one namespace of the item to another does not change
the attribute. -/
theorem C14_fallback (strict : Bool) (it : Item Cls) (hs : place it.get = .child) (N : NsMap) (e e' : Xml)
    (pre post pre' post' : List Str) (id id' : Str)
    (hids : it.nsIds = pre ++ id :: post) (hids' : it.nsIds = pre' ++ id' :: post')
    (h1 : ∀ i ∈ pre, trimmed (childText e (nsGet N i ++ it.node)) = none)
    (h2 : ∀ i ∈ pre', trimmed (childText e' (nsGet N i ++ it.node)) = none)
    (t : Str) (v : Val Cls F) (hv : denotes strict it t = some v)
    (ht : trimmed (childText e (nsGet N id ++ it.node)) = some t)
    (ht' : trimmed (childText e' (nsGet N id' ++ it.node)) = some t) :
    (firstValue strict it N e it.nsIds : Option (Val Cls F)) = firstValue strict it N e' it.nsIds := by
  have key : ∀ (e : Xml) (pre post : List Str) (id : Str),
      (∀ i ∈ pre, trimmed (childText e (nsGet N i ++ it.node)) = none) →
      trimmed (childText e (nsGet N id ++ it.node)) = some t →
      (firstValue strict it N e (pre ++ id :: post) : Option (Val Cls F)) = some v := by
    intro e pre post id hp ht
    induction pre with
    | nil => simp [firstValue, itemText, hs, ht, hv]
    | cons i pre ih =>
      simp only [List.cons_append, firstValue, itemText, hs, hp i (by simp)]
      exact ih (fun j hj => hp j (by simp [hj]))
  rw [hids, key e pre post id h1 ht, ← hids, hids', key e' pre' post' id' h2 ht']

/-! ## C47 -/

/-- **C47.** Whitespace around values and in elements that have children is
irrelevant: elements with the same content up to that whitespace are read alike.
`Spec.sameUpToSpace` excludes `<when>` in tracks, whose text must be equal. -/
theorem C47_whitespace (strict : Bool) (c : Cls) (ns : Str) (nss : NsMap) (e e' : Xml)
    (h : Agree sameUpToSpace fastkml (mergeNs nss) c e e') :
    parse (F := F) fastkml strict e c ns nss = parse fastkml strict e' c ns nss :=
  agree_parse (textOk_space strict) fastkml_classesOk h ns nss rfl

theorem respaced_tag {e e' : Xml} (h : Respaced e e') : e'.tag = e.tag := by
  cases h <;> rfl

theorem all2_of_zip {α β : Type} {R : α → β → Prop} {l : List α} {m : List β} (hl : l.length = m.length)
    (h : ∀ p ∈ l.zip m, R p.1 p.2) : All2 R l m := by
  induction l generalizing m with
  | nil => cases m with
    | nil => exact .nil
    | cons _ _ => cases hl
  | cons a l ih => cases m with
    | nil => cases hl
    | cons b m =>
      exact .cons (h (a, b) (by simp)) (ih (by simpa using hl) fun p hp => h p (by simp [hp]))

theorem all2_zip {α β : Type} {R : α → β → Prop} {l : List α} {m : List β} (h : All2 R l m) :
    ∀ p ∈ l.zip m, R p.1 p.2 := by
  induction h with
  | nil => simp
  | cons h1 _ ih =>
    intro p hp
    simp only [List.zip_cons_cons, List.mem_cons] at hp
    rcases hp with rfl | hp
    · exact h1
    · exact ih p hp

theorem respaced_text {e e' : Xml} (h : Respaced e e') : trimmed e.text = trimmed e'.text ∧
    (localName e.tag ∈ [s% "coordinates", s% "coord", s% "angles", s% "when"] →
      e.text.map strip = e'.text.map strip) ∧
    (localName e.tag ∈ [s% "coord", s% "angles"] → e.text = e'.text ∨ trimmed e.text ≠ none) ∧
    (localName e.tag = s% "when" → e.text = e'.text) := by
  cases h with
  | mk h hs hb hw => exact ⟨h, hs, hb, hw⟩

/-- Where the sensitive texts are. -/
theorem fastkml_textNodes (c : Cls) : ∀ it ∈ fastkml.itemsOf c,
    (it.get = .subDtList → it.node = s% "when") ∧
    (it.get = .coordsList → it.node = s% "coord" ∨ it.node = s% "angles") ∧
    (it.get = .coordinates → c = .Coordinates) := by
  have : ∀ c ∈ Cls.all, ∀ it ∈ fastkml.itemsOf c,
    (it.get = .subDtList → it.node = s% "when") ∧
    (it.get = .coordsList → it.node = s% "coord" ∨ it.node = s% "angles") ∧
    (it.get = .coordinates → c = .Coordinates) := by decide +kernel
  exact this c (Cls.mem_all c)

theorem respaced_agree {N : NsMap} (hN : NsOk N) {e e' : Xml} (h : Respaced e e') :
    ∀ c, (c = Cls.Coordinates → localName e.tag = s% "coordinates") →
      Agree sameUpToSpace fastkml N c e e' := by
  induction h with
  | @mk t a x x' ks ks' h hs hb hw hlen hks ih =>
    intro c hcc
    have hk2 : All2 Respaced ks ks' := all2_of_zip hlen hks
    have hk3 : All2 (fun k k' => Respaced k k' ∧ ∀ c, (c = Cls.Coordinates → localName k.tag = s% "coordinates") →
      Agree sameUpToSpace fastkml N c k k') ks ks' := all2_of_zip hlen fun p hp => ⟨hks p hp, ih p hp⟩
    have hfind : ∀ tag, _ := fun tag : Str =>
      hk3.find? (p := fun k => decide (k.tag = tag)) (q := fun k => decide (k.tag = tag))
        (fun a b hab => by rw [respaced_tag hab.1])
    have hfa : ∀ tag, _ := fun tag : Str =>
      hk3.filter (p := fun k => decide (k.tag = tag)) (q := fun k => decide (k.tag = tag))
        (fun a b hab => by rw [respaced_tag hab.1])
    have hd : ∀ it ∈ fastkml.itemsOf c, ∀ d, .cls d ∈ it.classes → ∀ (id : Str) (k : Xml),
        k.tag = nsGet N id ++ (fastkml.info d).tag → d = .Coordinates → localName k.tag = s% "coordinates" := by
      rintro it hit d hd id k hk rfl
      rw [hk, localOf_append (nsGet_form hN id) (by decide)]
      rfl
    refine .mk ?_ ?_ ?_ ?_ ?_ ?_ ?_ ?_
    · intro it hit hp
      have hc' := (fastkml_textNodes c it hit).2.2
      simp only [sameUpToSpace]
      cases hg : it.get <;> simp [hg, place] at hp
      · exact h
      · exact hs (by rw [show localName t = s% "coordinates" from hcc (hc' hg)]; simp)
    · intro it hit hp id hid
      simp only [sameUpToSpace]
      cases hg : it.get <;> simp [hg, place] at hp <;> rfl
    · intro it hit hp id hid
      have : trimmed (childText (.mk t a x ks) (nsGet N id ++ it.node)) =
          trimmed (childText (.mk t a x' ks') (nsGet N id ++ it.node)) := by
        simp only [childText, Xml.kids]
        rcases hfind (nsGet N id ++ it.node) with ⟨h1, h2⟩ | ⟨k, k', _, _, hr, h1, h2⟩
        · rw [h1, h2]
        · rw [h1, h2]; exact (respaced_text hr.1).1
      simp only [sameUpToSpace]
      cases hg : it.get <;> simp [hg, place] at hp <;> exact this
    · intro it hit hp id hid
      simp only [Xml.findall, Xml.kids]
      refine (hfa (nsGet N id ++ it.node)).imp ?_
      intro k hk k' _ hr
      have htag : k.tag = nsGet N id ++ it.node := by simpa using (List.mem_filter.mp hk).2
      have hl : localName k.tag = it.node := by
        rw [htag, localOf_append (nsGet_form hN id) ((fastkml_namesOk c).node it hit)]
      obtain ⟨n1, n2, _⟩ := fastkml_textNodes c it hit
      obtain ⟨_, t2, t3, t4⟩ := respaced_text hr.1
      simp only [sameUpToSpace]
      cases hg : it.get <;> simp [hg, place] at hp
      · exact t4 (by rw [hl, n1 hg])
      · have hor := n2 hg
        rcases t3 (by rw [hl]; rcases hor with h | h <;> simp [h]) with h | h
        · exact Or.inl h
        · exact Or.inr ⟨t2 (by rw [hl]; rcases hor with h | h <;> simp [h]), h⟩
    · intro it hit hp id hid d hdm
      simp only [Xml.find, Xml.kids]
      rcases hfind (nsGet N id ++ (fastkml.info d).tag) with ⟨h1, h2⟩ | ⟨k, k', _, _, hr, h1, h2⟩ <;>
        rw [h1, h2] <;> rfl
    · intro it hit hp id hid d hdm k k' hk hk'
      simp only [Xml.find, Xml.kids] at hk hk'
      rcases hfind (nsGet N id ++ (fastkml.info d).tag) with ⟨h1, h2⟩ | ⟨j, j', _, _, hr, h1, h2⟩
      · rw [h1] at hk; cases hk
      · rw [h1] at hk; rw [h2] at hk'
        cases hk; cases hk'
        have := List.find?_some h1
        exact hr.2 d (hd it hit d hdm id k (by simpa using this))
    · intro it hit hp id hid d hdm
      exact (hfa (nsGet N id ++ (fastkml.info d).tag)).length
    · intro it hit hp id hid d hdm p hpm
      simp only [Xml.findall, Xml.kids] at hpm
      have h1 := all2_zip (hfa (nsGet N id ++ (fastkml.info d).tag)) p hpm
      have h2 := (List.mem_filter.mp (List.of_mem_zip hpm).1).2
      exact h1.2 d (hd it hit d hdm id p.1 (by simpa using h2))

/-- **C47.** A document and a respaced version of it (for instance a pretty printed
one, see `Spec.Respaced`) are read alike. -/
theorem C47_respaced (strict : Bool) (c : Cls) (ns : Str) (nss : NsMap) (hns : NsOk nss) (e e' : Xml)
    (h : Respaced e e') (hc : c = .Coordinates → localName e.tag = s% "coordinates") :
    parse (F := F) fastkml strict e c ns nss = parse fastkml strict e' c ns nss :=
  C47_whitespace strict c ns nss e e' (respaced_agree (nsOk_merge hns) h c hc)

/-- Pretty printing a point. -/
example (strict : Bool) :
    parse (F := F) fastkml strict (.mk (s% "Point") [] none [kmlChild (s% "coordinates") (s% "1,2")]) .Point [] [] =
    parse fastkml strict (.mk (s% "Point") [] (some (s% "\n  "))
      [kmlChild (s% "coordinates") (s% "\n 1,2 ")]) .Point [] [] := by
  refine C47_respaced strict .Point [] [] (fun _ h => by cases h) _ _ ?_ (fun h => by cases h)
  refine .node rfl (by decide) (by decide) rfl ?_
  intro p hp
  simp at hp
  subst hp
  exact .leaf (by decide) (by decide) (by decide) (by decide)

/-- **C47**, disagreement: whitespace in the `<when>` of a track matters. -/
theorem C47_when_not :
    (match (parse fastkml true (.mk (s% "Track") [] none [kmlChild (s% "when") (s% "2020"),
        .leaf (s% "{http://www.google.com/kml/ext/2.2}coord") (s% "1 2")]) .Track [] [] :
        Except Err (Val Cls Fix)) with
      | .ok _ => true
      | .error _ => false) = true ∧
    (match (parse fastkml true (.mk (s% "Track") [] none [kmlChild (s% "when") (s% " 2020 "),
        .leaf (s% "{http://www.google.com/kml/ext/2.2}coord") (s% "1 2")]) .Track [] [] :
        Except Err (Val Cls Fix)) with
      | .ok _ => true
      | .error _ => false) = false := by
  constructor <;> decide +kernel

/-! ## C48 -/

/-- **C48.** In lenient mode malformed scalars are treated as if they were absent,
anywhere in the document. -/
theorem C48_lenient (c : Cls) (ns : Str) (nss : NsMap) (e e' : Xml)
    (h : Agree (sameLenient F) fastkml (mergeNs nss) c e e') :
    parse (F := F) fastkml false e c ns nss = parse fastkml false e' c ns nss :=
  agree_parse textOk_lenient fastkml_classesOk h ns nss rfl

/-- The element without its children of that name. -/
def Spec.withoutKids (tag : Str) : Xml → Xml
  | .mk t a x ks => .mk t a x (ks.filter fun k => decide (k.tag ≠ tag))

/-- The element without the attribute of that name. -/
def Spec.withoutAttr (key : Str) : Xml → Xml
  | .mk t a x ks => .mk t (a.filter fun p => decide (p.1 ≠ key)) x ks

theorem find_without {tag tag' : Str} (e : Xml) (h : tag' ≠ tag) :
    (withoutKids tag e).find tag' = e.find tag' := by
  obtain ⟨t, a, x, ks⟩ := e
  simp only [withoutKids, Xml.find, Xml.kids, List.find?_filter]
  congr 1
  funext k
  by_cases hk : k.tag = tag'
  · simp [hk, h]
  · simp [hk]

theorem findall_without {tag tag' : Str} (e : Xml) (h : tag' ≠ tag) :
    (withoutKids tag e).findall tag' = e.findall tag' := by
  obtain ⟨t, a, x, ks⟩ := e
  simp only [withoutKids, Xml.findall, Xml.kids, List.filter_filter]
  congr 1
  funext k
  by_cases hk : k.tag = tag'
  · simp [hk, h]
  · simp [hk]

theorem find_without_self {tag : Str} (e : Xml) : (withoutKids tag e).find tag = none := by
  obtain ⟨t, a, x, ks⟩ := e
  simp [withoutKids, Xml.find, Xml.kids]

theorem zip_self_eq {α : Type} {l : List α} {p : α × α} (hp : p ∈ l.zip l) : p.1 = p.2 := by
  induction l with
  | nil => simp at hp
  | cons k l ih =>
    simp only [List.zip_cons_cons, List.mem_cons] at hp
    rcases hp with rfl | hp
    · rfl
    · exact ih hp

/-- **C48** for one malformed child: in lenient mode an element whose first child
of the name of a scalar item is malformed (`Spec.Worthless`) is read like the element
without these children. -/
theorem C48_child (c : Cls) (ns : Str) (nss : NsMap) (hns : NsOk nss) (e : Xml) (it : Item Cls)
    (hit : it ∈ fastkml.itemsOf c) (hp : place it.get = .child) (id : Str)
    (hbad : Worthless F it (childText e (nsGet (mergeNs nss) id ++ it.node))) :
    parse (F := F) fastkml false e c ns nss =
      parse fastkml false (withoutKids (nsGet (mergeNs nss) id ++ it.node) e) c ns nss := by
  refine C48_lenient c ns nss _ _ ?_
  have hN := nsOk_merge hns
  have hT : ∀ (it : Item Cls) t, sameLenient F it t t := fun _ _ => Or.inl rfl
  have hself : it.node ∈ localNames fastkml it := by simp [localNames, hp]
  have hw0 : Worthless F it none := by
    have hbad' := hbad
    simp only [Worthless] at hbad' ⊢
    cases hg : it.get <;> rw [hg] at hbad' <;> simp [trimmed, given] at hbad' ⊢
  have hne : ∀ it' ∈ fastkml.itemsOf c, ∀ id', ∀ l ∈ localNames fastkml it', it' ≠ it →
      nsGet (mergeNs nss) id' ++ l ≠ nsGet (mergeNs nss) id ++ it.node := by
    intro it' hit' id' l hl hne heq
    exact hne (item_of_tag (fastkml_namesOk c) (nsGet_form hN id') (nsGet_form hN id) hit' hit hl hself heq).1
  have htext : (withoutKids (nsGet (mergeNs nss) id ++ it.node) e).text = e.text := by cases e; rfl
  have hattrs : ∀ k, (withoutKids (nsGet (mergeNs nss) id ++ it.node) e).get k = e.get k := by
    intro k; cases e; rfl
  refine .mk ?_ ?_ ?_ ?_ ?_ ?_ ?_ ?_
  · intro it' _ _; rw [htext]; exact hT _ _
  · intro it' _ _ id' _; rw [hattrs]; exact hT _ _
  · intro it' hit' hp' id' hid'
    by_cases heq : nsGet (mergeNs nss) id' ++ it'.node = nsGet (mergeNs nss) id ++ it.node
    · have hii : it' = it := (item_of_tag (fastkml_namesOk c) (nsGet_form hN id') (nsGet_form hN id) hit' hit
        (by simp [localNames, hp']) hself heq).1
      subst hii
      rw [heq, childText_find (withoutKids _ _), find_without_self]
      exact Or.inr ⟨hbad, hw0⟩
    · rw [childText_find, childText_find, find_without _ heq]
      exact hT _ _
  · intro it' hit' hp' id' hid'
    rw [findall_without _ (hne it' hit' id' _ (by simp [localNames, hp']) (by rintro rfl; rw [hp] at hp'; cases hp'))]
    exact All2.refl fun k _ => hT _ _
  · intro it' hit' hp' id' hid' d hd
    rw [find_without _ (hne it' hit' id' _ (by simp only [localNames, hp', List.mem_filterMap]; exact ⟨_, hd, rfl⟩)
      (by rintro rfl; rw [hp] at hp'; cases hp'))]
  · intro it' hit' hp' id' hid' d hd k k' hk hk'
    rw [find_without _ (hne it' hit' id' _ (by simp only [localNames, hp', List.mem_filterMap]; exact ⟨_, hd, rfl⟩)
      (by rintro rfl; rw [hp] at hp'; cases hp')), hk] at hk'
    cases hk'
    exact agree_refl hT fastkml _ _ d
  · intro it' hit' hp' id' hid' d hd
    rw [findall_without _ (hne it' hit' id' _ (by simp only [localNames, hp', List.mem_filterMap]; exact ⟨_, hd, rfl⟩)
      (by rintro rfl; rw [hp] at hp'; cases hp'))]
  · intro it' hit' hp' id' hid' d hd p hpm
    rw [findall_without _ (hne it' hit' id' _ (by simp only [localNames, hp', List.mem_filterMap]; exact ⟨_, hd, rfl⟩)
      (by rintro rfl; rw [hp] at hp'; cases hp'))] at hpm
    rw [zip_self_eq hpm]
    exact agree_refl hT fastkml _ _ d

theorem get_without {key k : Str} (e : Xml) (h : k ≠ key) : (withoutAttr key e).get k = e.get k := by
  obtain ⟨t, a, x, ks⟩ := e
  simp only [withoutAttr, Xml.get, Xml.attrs]
  induction a with
  | nil => rfl
  | cons p a ih =>
    obtain ⟨k', v⟩ := p
    simp only [List.filter_cons, dget]
    by_cases h1 : k' = key
    · have : k' ≠ k := by rintro rfl; exact h h1
      simp only [h1, ne_eq, not_true_eq_false, decide_false, Bool.false_eq_true, if_false]
      rw [if_neg (by rw [← h1]; exact this)]
      exact ih
    · simp only [ne_eq, h1, not_false_eq_true, decide_true, if_true, dget]
      split
      · rfl
      · exact ih

theorem get_without_self {key : Str} (e : Xml) : (withoutAttr key e).get key = none := by
  obtain ⟨t, a, x, ks⟩ := e
  simp only [withoutAttr, Xml.get, Xml.attrs]
  induction a with
  | nil => rfl
  | cons p a ih =>
    obtain ⟨k', v⟩ := p
    simp only [List.filter_cons]
    by_cases h1 : k' = key
    · simp only [h1, ne_eq, not_true_eq_false, decide_false, Bool.false_eq_true, if_false]
      exact ih
    · simp only [ne_eq, h1, not_false_eq_true, decide_true, if_true, dget, if_false]
      exact ih

/-- **C48** for one malformed XML attribute (a number or an enumeration; a malformed
integer raises `ValueError` instead, see `C07_valueError_lenient`). -/
theorem C48_attribute (c : Cls) (ns : Str) (nss : NsMap) (hns : NsOk nss) (e : Xml) (it : Item Cls)
    (hit : it ∈ fastkml.itemsOf c) (hp : place it.get = .attr) (id : Str)
    (hbad : Worthless F it (e.get (nsGet (mergeNs nss) id ++ it.node))) :
    parse (F := F) fastkml false e c ns nss =
      parse fastkml false (withoutAttr (nsGet (mergeNs nss) id ++ it.node) e) c ns nss := by
  refine C48_lenient c ns nss _ _ ?_
  have hN := nsOk_merge hns
  have hT : ∀ (it : Item Cls) t, sameLenient F it t t := fun _ _ => Or.inl rfl
  have hw0 : Worthless F it none := by
    have hbad' := hbad
    simp only [Worthless] at hbad' ⊢
    cases hg : it.get <;> rw [hg] at hbad' <;> simp [trimmed, given] at hbad' ⊢
  obtain ⟨t, a, x, ks⟩ := e
  refine .mk ?_ ?_ ?_ ?_ ?_ ?_ ?_ ?_
  · intro it' _ _; exact hT _ _
  · intro it' hit' hp' id' hid'
    by_cases heq : nsGet (mergeNs nss) id' ++ it'.node = nsGet (mergeNs nss) id ++ it.node
    · obtain ⟨_, hn⟩ := tag_inj (nsGet_form hN id') (nsGet_form hN id) ((fastkml_namesOk c).node it' hit')
        ((fastkml_namesOk c).node it hit) heq
      have hii : it' = it := injOn_of_nodup_map (fastkml_namesOk c).attrs
        (List.mem_filter.mpr ⟨hit', by simp [hp']⟩) (List.mem_filter.mpr ⟨hit, by simp [hp]⟩) hn
      subst hii
      rw [heq, get_without_self]
      exact Or.inr ⟨hbad, hw0⟩
    · rw [get_without _ heq]; exact hT _ _
  · intro it' hit' hp' id' hid'; exact hT _ _
  · intro it' hit' hp' id' hid'; exact All2.refl fun k _ => hT _ _
  · intro it' hit' hp' id' hid' d hd; rfl
  · intro it' hit' hp' id' hid' d hd k k' hk hk'
    have hk'' : (Xml.mk t a x ks).find (nsGet (mergeNs nss) id' ++ (fastkml.info d).tag) = some k' := hk'
    rw [hk] at hk''
    cases hk''
    exact agree_refl hT fastkml _ _ d
  · intro it' hit' hp' id' hid' d hd; rfl
  · intro it' hit' hp' id' hid' d hd p hpm
    have hpm' : p ∈ ((Xml.mk t a x ks).findall (nsGet (mergeNs nss) id' ++ (fastkml.info d).tag)).zip
      ((Xml.mk t a x ks).findall (nsGet (mergeNs nss) id' ++ (fastkml.info d).tag)) := hpm
    rw [zip_self_eq hpm']
    exact agree_refl hT fastkml _ _ d

/-- A malformed visibility, for a placemark. -/
example : parse (F := Fix) fastkml false (.mk (s% "Placemark") [] none
      [kmlChild (s% "name") (s% "a"), kmlChild (s% "visibility") (s% "maybe")]) .Placemark [] [] =
    parse fastkml false (.mk (s% "Placemark") [] none [kmlChild (s% "name") (s% "a")]) .Placemark [] [] := by
  refine (C48_child .Placemark [] [] (fun _ h => by cases h) _
    ⟨[s% "kml", s% ""], [.bool], s% "visibility", .subBool, .subBool, s% "visibility", .bool true⟩
    (by decide +kernel) rfl (s% "kml") ?_).trans rfl
  intro s hs
  have : s = s% "maybe" := by
    have h2 : trimmed (childText (.mk (s% "Placemark") [] none [kmlChild (s% "name") (s% "a"),
      kmlChild (s% "visibility") (s% "maybe")]) (nsGet (mergeNs []) (s% "kml") ++ s% "visibility")) = some (s% "maybe") := by
      decide +kernel
    rw [h2] at hs
    exact (Option.some.inj hs).symm
  subst this
  simp only [denotes]
  have : getBooleanValue Fix (s% "maybe") false = none := by decide +kernel
  rw [this]; rfl

end Verif
