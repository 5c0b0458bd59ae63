import Verif.Props.Said
import Verif.Props.Simple

set_option linter.unusedSectionVars false
set_option linter.unusedSimpArgs false

/-!
# C73: valid documents are opened, saved and opened again without loss
-/

namespace Verif

open Spec

variable {F : Type} [PyExt F] [LawfulExt F] [AsciiExt F] [ReadsDoubles F]

/-- **C73, strings.** A text that holds a valid document is opened by `from_string` in the
strict mode; everything supported that is in the document is in the object; the object can
be written as a text; and opening that text, strictly or not, gives the same object again
except for empty objects. -/
theorem C73_string {W : Etree} (hW : Faithful W) {t : Str} {e : Xml} (hf : W.fromstring t = .ok e) {c : Cls} {T : QN}
    (hc : elemType c = some T) (hr : e.tag = tagOf (elemName c)) (hv : Valid lexOk T e) (hfit : Fit F (WellFormedTime F) e c T)
    (hs : Standard (mergeNs []) e) (hg : LegalDoc e) (hl : LastingDoc F (mergeNs []) e) (pp : Bool) :
    ∃ (v : Val Cls F) (t' : Str), fromString W true c none [] t = .ok v ∧ Kept e c T v ∧
      toString W pp ⟨none, .normal⟩ v = .ok t' ∧ ∀ strict, fromString W strict c none [] t' = .ok (prune v) := by
  obtain ⟨v, h, hk, _⟩ := C63_values (F := F) hc hv hfit none
  have h' : fromString W true c none [] t = .ok v := fromString_eq hf h
  have htag : KnownAs (mergeNs []) (fastkml.info c).tag e.tag := by
    have key : ∀ c ∈ Cls.all, elemType c ≠ none → ∃ id ∈ [s% "kml", s% "gx", s% "atom"], uri (xnsOf c) = nsGet (mergeNs []) id := by
      decide +kernel
    obtain ⟨id, _, hid⟩ := key c (Cls.mem_all c) (by rw [hc]; simp)
    exact ⟨id, by rw [hr, ← hid]; rfl⟩
  obtain ⟨t', h1, h2⟩ := C72_lossless hW hf (by intro p hp; cases hp) (by decide) (by decide) (by decide) htag hs hg hl h' pp
  exact ⟨v, t', h', hk, h1, h2⟩

/-- **C73, files.** The same for `KML.parse` and `KML.write`: -/
theorem C73_file {W : Etree} (hW : Faithful W) {fs : FS} {p : Str × Str} {val : Option Bool} {root : Xml}
    (hload : loadRoot W fs p true val = .ok root) {T : QN} (hT : elemType .KML = some T)
    (hr : root.tag = tagOf (elemName .KML)) (hv : Valid lexOk T root) (hfit : Fit F (WellFormedTime F) root .KML T)
    (hs : Standard (mergeNs []) root) (hg : LegalDoc root) (hl : LastingDoc F (mergeNs []) root)
    (q : Str × Str) (hq : ¬ KmzName q.2) (pp : Bool) :
    ∃ (v : Val Cls F) (fs' : FS), (kmlParse W fs p none none true val).1 = .ok v ∧ Kept root .KML T v ∧
      kmlWrite W fs q pp ⟨none, .normal⟩ v = (fs', .ok ()) ∧
      ∀ strict val', (∀ e, ser fastkml ⟨none, .normal⟩ v = .ok e → Passes W strict val' e) →
        (kmlParse W fs' q none none strict val').1 = .ok (prune v) := by
  obtain ⟨v, h, hk, _⟩ := C63_values_kml (F := F) hT hr hv hfit
  have h' : (kmlParse W fs p none none true val).1 = .ok v := by simp only [kmlParse, hload, h]
  have hN : mergeNs (dset (s% "kml") (stdNs (s% "kml")) ((none : Option NsMap).getD [])) = mergeNs [] := by decide +kernel
  obtain ⟨fs', h1, h2⟩ := C72_lossless_file (n := stdNs (s% "kml")) (nss := none) hW hload (nsGet_legal default_legal (s% "kml"))
    (by decide) (by rw [hr]; decide +kernel) (by decide) (by intro p hp; cases hp) (by decide) (by decide +kernel)
    (by rw [hN]; exact hs) hg (by rw [hN]; exact hl) h' q hq pp
  exact ⟨v, fs', h', hk, h1, h2⟩

/-! ## Cases -/

instance : AsciiExt XFix where
  repr f := AsciiExt.repr f.val
  fixed p f := AsciiExt.fixed p f.val

/-- The text of a document that meets the hypotheses of `C73_string` is opened, saved and
opened again. -/
theorem C73_case {d : Xml} (hd : writableB d = true) {e : Xml} (he : resolve [] (Lib.indent false d) = e)
    (hr : e.tag = tagOf (elemName .KML)) (hv : validB scientificB 10 (.q .kml (s% "KmlType")) e = true)
    (hf : fitB XFix (timeB XFix) 10 e .KML (.q .kml (s% "KmlType")) = true) (hs : standardB N0 e = true)
    (hg : allNodes legalNodeB e = true) (hl : allNodes (lastingNodeB XFix N0) e = true) (pp : Bool) :
    ∃ (v : Val Cls XFix) (t' : Str), fromString Lib.xmlLib true .KML none [] (Lib.print false d) = .ok v ∧
      Kept e .KML (.q .kml (s% "KmlType")) v ∧ toString Lib.xmlLib pp ⟨none, .normal⟩ v = .ok t' ∧
      ∀ strict, fromString Lib.xmlLib strict .KML none [] t' = .ok (prune v) := by
  have h1 := Lib.read_print false d (writableB_sound hd)
  rw [he] at h1
  exact C73_string Lib.xmlLib_faithful h1 (by decide +kernel) hr (validB_sound scientificB_sound hv)
    (fitB_rule (fun h => timeB_sound h) hf) (standardB_of hs) (legalDoc_of hg) (lastingDoc_of hl) pp

example (pp : Bool) : ∃ (v : Val Cls XFix) (t' : Str), fromString Lib.xmlLib true .KML none [] (Lib.print false scientificDoc) = .ok v ∧
    Kept (resolve [] (Lib.indent false scientificDoc)) .KML (.q .kml (s% "KmlType")) v ∧
    toString Lib.xmlLib pp ⟨none, .normal⟩ v = .ok t' ∧
    ∀ strict, fromString Lib.xmlLib strict .KML none [] t' = .ok (prune v) :=
  C73_case (by decide +kernel) rfl (by decide +kernel) (by decide +kernel) (by decide +kernel) (by decide +kernel)
    (by decide +kernel) (by decide +kernel) pp

end Verif
