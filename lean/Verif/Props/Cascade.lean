import Verif.Cascade
import Verif.Props.Extend

/-!
# The documented extension (C62)

The class `CascadingStyle` of the documentation (docs/working_with_kml.rst:99-157,
examples/transform_cascading_style.py) meets the conditions of the theorems about
extensions.
-/

set_option linter.unusedSectionVars false
set_option linter.unusedSimpArgs false

namespace Verif

open Spec

/-- All classes. -/
def cascadeAll : List (Option Cls) := none :: Cls.all.map some

theorem mem_cascadeAll (d : Option Cls) : d ∈ cascadeAll := by
  cases d with
  | none => exact List.mem_cons_self ..
  | some c => exact List.mem_cons_of_mem _ (List.mem_map.mpr ⟨c, Cls.mem_all c, rfl⟩)

theorem cascade_sound : Sound cascadeBase where
  mro d := by
    have key : ∀ d ∈ cascadeAll, (cascadeBase.info d).mro.Nodup := by decide +kernel
    exact key d (mem_cascadeAll d)
  read d := by
    have key : ∀ d ∈ cascadeAll, readOk cascadeBase d = true := by decide +kernel
    exact readOk_iff (key d (mem_cascadeAll d))
  write d := by
    have key : ∀ d ∈ cascadeAll, writeOk cascadeBase d = true := by decide +kernel
    exact writeOk_iff (key d (mem_cascadeAll d))
  bool d := by
    have key : ∀ d ∈ cascadeAll, boolOk cascadeBase d = true := by decide +kernel
    exact key d (mem_cascadeAll d)
  cycle d := by
    have key : ∀ d ∈ cascadeAll, cycleOk cascadeBase d = true := by decide +kernel
    exact cycleOk_iff (key d (mem_cascadeAll d))
  names d := by
    have key : ∀ d ∈ cascadeAll, namesOk cascadeBase d = true := by decide +kernel
    exact namesOk_iff (key d (mem_cascadeAll d))

theorem cascade_homeOk (d : Option Cls) : HomeOk cascadeBase d := by
  have key : ∀ d ∈ cascadeAll, homeOk cascadeBase d = true := by decide +kernel
  exact homeOk_iff (key d (mem_cascadeAll d))

/-- The conditions of `NewAttr`, for a list of all classes. -/
def freshB [DecidableEq C] (L : Lib C) (all : List C) (c : C) (it : Item C) : Bool :=
  decide (it.attr ∉ builtin) && all.all fun d => decide (Inherits L d c → (L.info d).kwargs = true ∧
    it.attr ∉ specialArgs (L.info d).special ++ (L.info d).slots.map Prod.fst ∧
    (∀ i ∈ L.itemsOf d, i.attr ≠ it.attr) ∧ it.attr ∉ boolAttrs (L.info d).bool)

theorem freshB_sound [DecidableEq C] {L : Lib C} {all : List C} {c : C} {it : Item C} (hall : ∀ d, d ∈ all)
    (h : freshB L all c it = true) : NewAttr L c it := by
  simp only [freshB, Bool.and_eq_true, decide_eq_true_eq, List.all_eq_true] at h
  exact ⟨h.1, fun d hd => (h.2 d (hall d) hd).1, fun d hd => (h.2 d (hall d) hd).2.1,
    fun d hd => (h.2 d (hall d) hd).2.2.1, fun d hd => (h.2 d (hall d) hd).2.2.2⟩

theorem cascade_fresh : NewAttr cascadeBase (some .Document) cascadeItem := freshB_sound mem_cascadeAll (by decide +kernel)

theorem cascade_suitable : Suitable cascadeBase (some .Document) cascadeItem :=
  suitableB_sound mem_cascadeAll (by decide +kernel)

theorem cascade_home : AtHome cascadeBase (some .Document) cascadeItem := atHomeB_sound mem_cascadeAll (by decide +kernel)

/-- **C62.** After the registrations of the example, the attribute of a document has the readings of all its
`gx:CascadingStyle` elements, in order. -/
theorem C62_cascade_reads [PyExt F] [LawfulExt F] {strict : Bool} {ns : Option Str} {nss : NsMap} {e : Xml} {v : Val (Option Cls) F}
    (h : fromElement cascadeLib strict (some .Document) ns nss e = .ok v) :
    ∃ ns' attrs vs, v = .obj (some .Document) ns' (mergeNs nss) attrs ∧
      dget (s% "gx_cascading_style") attrs = some (.list vs) ∧
      All2 (fun x w => fromElement cascadeLib strict none (some (nsGet (mergeNs nss) (s% "gx"))) (mergeNs nss) x = .ok w)
        (e.findall (nsGet (mergeNs nss) (s% "gx") ++ s% "CascadingStyle")) vs := by
  obtain ⟨ns', attrs, vss, h1, h2, h3⟩ := C62_list cascade_fresh rfl (show cascadeItem.nsIds = (s% "gx") :: [] from rfl)
    (show some Cls.Document ∈ (cascadeBase.info (some .Document)).mro from by decide +kernel) h
  change All2 _ [PyType.cls none] vss at h3
  cases h3 with
  | cons h4 h5 =>
    cases h5
    obtain ⟨k, hk, h6⟩ := h4
    cases hk
    exact ⟨ns', attrs, _, h1, h2, by simp only [List.flatten_cons, List.flatten_nil, List.append_nil]; exact h6⟩

/-- **C62.** Documents with such elements are written and read back unchanged. -/
theorem C62_cascade_roundtrip [PyExt F] [LawfulExt F] {d : Option Cls} {ns : Str} {nss : NsMap}
    {attrs : List (Str × Val (Option Cls) F)}
    (ht : typed (declared cascadeBase (some .Document) cascadeItem) dim23 (.obj d ns nss attrs) = true) {M : NsMap} (hM : NsOk M)
    (hr : Everywhere (Readable (declared cascadeBase (some .Document) cascadeItem) ⟨none, .normal⟩ (mergeNs M)) (.obj d ns nss attrs))
    (hc : AllCanonical (declared cascadeBase (some .Document) cascadeItem) (mergeNs M) (.obj d ns nss attrs)) (strict : Bool) :
    ∃ e, ser cascadeLib ⟨none, .normal⟩ (asExtra cascadeBase (some .Document) cascadeItem (.obj d ns nss attrs)) = .ok e ∧
      fromElement cascadeLib strict d (some ns) M e =
        .ok (asExtra cascadeBase (some .Document) cascadeItem (.obj d ns nss attrs)) :=
  C62_roundtrip cascade_sound cascade_fresh cascade_suitable ht hM hr hc strict

/-- A document as in examples/gx_cascading_style.kml. -/
def cascadeXml : Xml :=
  .mk (kmlNs ++ s% "Document") [] none
    [.leaf (kmlNs ++ s% "name") (s% "Test2"),
     .mk (gxNs ++ s% "CascadingStyle") [(kmlNs ++ s% "id", s% "m25")] none
       [.mk (kmlNs ++ s% "Style") [] none [.mk (kmlNs ++ s% "LineStyle") [] none [.leaf (kmlNs ++ s% "width") (s% "24")]]],
     named kmlNs (s% "Placemark") (s% "p")]

/-- The document as objects of the library in which the attribute is declared. -/
def cascadeDoc : Val (Option Cls) Fix :=
  match fromElement (declared cascadeBase (some .Document) cascadeItem) true (some .Document) none [] cascadeXml with
  | .ok v => v
  | .error _ => .none

/-- The namespaces, ids and classes of the styles of the new elements. -/
def cascadesOf : Val (Option Cls) Fix → List (Str × Val (Option Cls) Fix × Option (Option Cls))
  | .obj _ _ _ attrs =>
    match attr (s% "gx_cascading_style") attrs with
    | .list l => l.filterMap fun
      | .obj none ns _ as => some (ns, attr (s% "id") as, classOf (attr (s% "style") as))
      | _ => none
    | _ => []
  | _ => []

/-- The hypotheses are met by the document. -/
example : fromElement cascadeLib true (some .Document) none [] cascadeXml =
      .ok (asExtra cascadeBase (some .Document) cascadeItem cascadeDoc) ∧
    classOf cascadeDoc = some (some .Document) ∧
    typed (declared cascadeBase (some .Document) cascadeItem) dim23 cascadeDoc = true ∧
    everywhereB (fun c _ nss attrs => canonicalB (declared cascadeBase (some .Document) cascadeItem) N0 c nss attrs) cascadeDoc = true ∧
    cascadesOf cascadeDoc = [(gxNs, .str (s% "m25"), some (some .Style))] := by
  decide +kernel

example : Everywhere (Readable (declared cascadeBase (some .Document) cascadeItem) ⟨none, .normal⟩ (mergeNs [])) cascadeDoc :=
  C62_readable cascade_sound cascade_homeOk cascade_fresh cascade_suitable cascade_home (P := dim23)
    (everywhere_of (q := fun c _ _ attrs => objOk (declared cascadeBase (some .Document) cascadeItem) dim23 c attrs)
      (fun _ _ _ _ h => h) (by decide +kernel))
    (by decide +kernel) (fun d hd => by
      have key : ∀ d ∈ cascadeAll, (cascadeBase.info d).special = .kml → nsGet (mergeNs []) (cascadeBase.info d).nsid ≠ [] := by
        decide +kernel
      exact key d (mem_cascadeAll d) hd)
    (everywhere_of (q := fun c ns nss _ => homeB cascadeBase N0 c ns nss) (fun _ _ _ _ h => of_decide_eq_true h)
      (by decide +kernel))
    (everywhere_of (q := fun c _ _ attrs => completeB (declared cascadeBase (some .Document) cascadeItem) c attrs)
      (fun _ _ _ _ h => completeB_sound h) (by decide +kernel)) _

end Verif
