import Verif.Lemmas.Fastkml
import Verif.ExtInst

/-!
# C06, C07: the exceptions of reading
-/

set_option linter.unusedSectionVars false
set_option linter.unusedSimpArgs false

namespace Verif

open Spec

variable {F : Type} [PyExt F]

theorem fastkml_attrInt (c : Cls) : ∀ it ∈ fastkml.itemsOf c, it.get = .attrInt →
    (it.node = s% "maxLines" ∧ it.nsIds = [[], s% "kml"]) ∨
    (it.node = s% "length" ∧ it.nsIds = [[], s% "atom"]) := by
  have : ∀ c ∈ Cls.all, ∀ it ∈ fastkml.itemsOf c, it.get = .attrInt →
    (it.node = s% "maxLines" ∧ it.nsIds = [[], s% "kml"]) ∨
    (it.node = s% "length" ∧ it.nsIds = [[], s% "atom"]) := by decide +kernel
  exact this c (Cls.mem_all c)

theorem fastkml_schema (c : Cls) : (fastkml.info c).special = .schema → c = .Schema := by
  have : ∀ c ∈ Cls.all, (fastkml.info c).special = .schema → c = .Schema := by decide +kernel
  exact this c (Cls.mem_all c)

theorem fastkml_track (c : Cls) : (fastkml.info c).special = .track → c = .Track := by
  have : ∀ c ∈ Cls.all, (fastkml.info c).special = .track → c = .Track := by decide +kernel
  exact this c (Cls.mem_all c)

theorem fastkml_schema_id : ∃ it ∈ fastkml.itemsOf .Schema, it.attr = s% "id" ∧
    it.nsIds = [s% "kml", []] ∧ it.node = s% "id" := by decide +kernel

/-- The causes of exceptions in fastkml: element `d`, read as class `c` with the
namespace mapping `N`. -/
def Spec.KmlCause (F : Type) [PyExt F] (strict : Bool) (N : NsMap) (d : Xml) (c : Cls) : Err → Prop
  -- a malformed value, in strict mode only
  | .parseError => strict = true
  -- a `maxLines` or `length` attribute that is not an integer
  | .valueError => ∃ key ∈ [s% "maxLines", s% "length"], ∃ id ∈ [[], s% "kml", s% "atom"], ∃ t,
      d.get (nsGet N id ++ key) = some t ∧ t ≠ [] ∧ intParse t = none
  -- a `Schema` without `id`
  | .schemaError => c = .Schema ∧ ∀ id ∈ [s% "kml", []], ∀ t,
      d.get (nsGet N id ++ s% "id") = some t → t = []
  -- a track, or a coordinate tuple that is neither 2- nor 3-dimensional
  | .typeError => c = .Track ∨ BadTuple F d
  -- no other exception
  | _ => False

/-- **C07.** Reading any element as any class raises only `KMLParseError`,
`ValueError`, `KMLSchemaError` or `TypeError`, and each has the stated cause in the
element or in one of its descendants. -/
theorem C07_exceptions (strict : Bool) (e : Xml) (c : Cls) (ns : Str) (nss : NsMap) (x : Err)
    (h : parse (F := F) fastkml strict e c ns nss = .error x) :
    ∃ d c', Sub e d ∧ KmlCause F strict (mergeNs nss) d c' x := by
  obtain ⟨d, c', hd, hc⟩ := parse_error_cause fastkml_boolOk fastkml_readOk e c ns nss x h
  refine ⟨d, c', hd, ?_⟩
  cases x with
  | parseError => exact hc
  | writeError => exact hc
  | geometryError => exact hc
  | dimensionError => exact hc
  | illTyped => exact hc
  | valueError =>
    obtain ⟨it, hit, hg, id, hid, t, h1, h2, h3⟩ := hc
    rcases fastkml_attrInt c' it hit hg with ⟨hn, hi⟩ | ⟨hn, hi⟩
    · rw [hi] at hid
      rw [hn] at h1
      exact ⟨_, by simp, id, by revert hid; simp; intro h; rcases h with h | h <;> simp [h], t, h1, h2, h3⟩
    · rw [hi] at hid
      rw [hn] at h1
      exact ⟨_, by simp, id, by revert hid; simp; intro h; rcases h with h | h <;> simp [h], t, h1, h2, h3⟩
  | schemaError =>
    have hs := fastkml_schema c' hc.1
    subst hs
    refine ⟨rfl, ?_⟩
    obtain ⟨it, hit, ha, hi, hn⟩ := fastkml_schema_id
    have := hc.2 it hit ha
    rw [hi, hn] at this
    exact this
  | typeError =>
    rcases hc with h | h
    · exact Or.inl (fastkml_track c' h)
    · exact Or.inr h

/-- **C07**, the list of exceptions. -/
theorem C07_kinds (strict : Bool) (e : Xml) (c : Cls) (ns : Str) (nss : NsMap) (x : Err)
    (h : parse (F := F) fastkml strict e c ns nss = .error x) :
    x = .parseError ∨ x = .valueError ∨ x = .schemaError ∨ x = .typeError := by
  obtain ⟨d, c', _, hc⟩ := C07_exceptions strict e c ns nss x h
  cases x <;> simp [KmlCause] at hc ⊢

/-- **C06.** Lenient reading never raises `KMLParseError`. -/
theorem C06_lenient (e : Xml) (c : Cls) (ns : Str) (nss : NsMap) :
    parse (F := F) fastkml false e c ns nss ≠ .error .parseError := by
  intro h
  obtain ⟨d, c', _, hc⟩ := C07_exceptions false e c ns nss _ h
  exact absurd hc (by simp [KmlCause])

/-- **C06** at the entry point `from_string`. -/
theorem C06_fromElement (c : Cls) (ns : Option Str) (nss : NsMap) (e : Xml) :
    fromElement (F := F) fastkml false c ns nss e ≠ .error .parseError :=
  C06_lenient e _ _ _

/-! Each of the exceptions occurs. -/

/-- A placemark with the given children. -/
def pmDoc (kids : List Xml) : Xml := .mk (s% "{http://www.opengis.net/kml/2.2}Placemark") [] none kids

/-- The error of a reading, if any. -/
def errOf {α : Type} : Except Err α → Option Err
  | .ok _ => none
  | .error e => some e

/-- `visibility` is not a boolean: `KMLParseError` in strict mode, nothing in lenient mode. -/
example : errOf (fromElement (F := Fix) fastkml true .Placemark none []
    (pmDoc [.mk (s% "{http://www.opengis.net/kml/2.2}visibility") [] (some (s% "maybe")) []]))
      = some .parseError ∧
    errOf (fromElement (F := Fix) fastkml false .Placemark none []
    (pmDoc [.mk (s% "{http://www.opengis.net/kml/2.2}visibility") [] (some (s% "maybe")) []]))
      = none := by decide +kernel

/-- `maxLines="x"` raises `ValueError` even in lenient mode, against the documented
contract. -/
theorem C07_valueError_lenient : errOf (fromElement (F := Fix) fastkml false .Placemark none []
    (pmDoc [.mk (s% "{http://www.opengis.net/kml/2.2}Snippet") [(s% "maxLines", s% "x")] none []]))
      = some .valueError := by decide +kernel

/-- A `Schema` without `id`. -/
example : errOf (fromElement (F := Fix) fastkml false .Document none []
    (.mk (s% "{http://www.opengis.net/kml/2.2}Document") [] none
      [.mk (s% "{http://www.opengis.net/kml/2.2}Schema") [] none []])) = some .schemaError := by
  decide +kernel

/-- A line with a one-dimensional coordinate. -/
theorem C07_typeError_lenient : errOf (fromElement (F := Fix) fastkml false .Placemark none []
    (pmDoc [.mk (s% "{http://www.opengis.net/kml/2.2}LineString") [] none
      [.mk (s% "{http://www.opengis.net/kml/2.2}coordinates") [] (some (s% "1 2")) []]]))
      = some .typeError := by decide +kernel

end Verif
