import Verif.LxmlFiles
import Verif.Props.Lxml
import Verif.Props.XmlText

/-!
# C75: texts and files with lxml
-/

set_option linter.unusedSectionVars false
set_option linter.unusedSimpArgs false

namespace Verif

open Spec

variable {F : Type} [PyExt F] [LawfulExt F] [AsciiExt F]

theorem legalText_string {s : Str} (h : LegalText s) : XmlString s := fun c hc => .inl (h c hc)

theorem legalValue_string {s : Str} (h : LegalValue s) : XmlString s := fun c hc => h c hc

theorem legalNs_string {n : Str} (h : LegalNs n) : XmlString n := by
  rcases h with rfl | ⟨u, rfl, hu⟩
  · intro c hc; cases hc
  · intro c hc
    rw [List.mem_append, List.mem_cons, List.mem_singleton] at hc
    rcases hc with (rfl | hc) | rfl
    · exact .inl (by decide)
    · exact .inl (hu.2.1 c hc).1
    · exact .inl (by decide)

theorem legalNode_plain {d : Xml} (h : LegalNode d) : PlainNode d := by
  obtain ⟨n, l, ht, hn, hl⟩ := h.tag
  refine ⟨ht ▸ string_append (legalNs_string hn) (legalName_string hl), fun p hp => ?_, fun s hs => legalText_string (h.text s hs).2.1⟩
  exact ⟨legalName_string (h.attrs p hp).1, legalValue_string (h.attrs p hp).2⟩

/-- **C75.** With lxml the same element is built for an object whose texts can be written as
XML (`Spec.Legal`, see C67), and the same text and the same file are written. -/
theorem C75_legal {v : Val Cls F} (ht : typed fastkml dim23 v = true) (hl : Everywhere (Legal fastkml) v) (o : Opts) :
    serLxml fastkml o v = ser fastkml o v ∧
      (∀ W pp, toStringLxml W pp o v = toString W pp o v) ∧
      ∀ W fs p pp, kmlWriteLxml W fs p pp o v = kmlWrite W fs p pp o v := by
  have h : serLxml fastkml o v = ser fastkml o v := by
    cases he : ser fastkml o v with
    | error x => simp only [serLxml, he]
    | ok e =>
      have ha : lxmlAccepts e = true := (accepts_iff e).mpr fun d hd =>
        legalNode_plain (ser_writable fastkml_writeOk fastkml_printOk ht hl he d hd)
      simp only [serLxml, he, ha, if_true]
  refine ⟨h, fun W pp => ?_, fun W fs p pp => ?_⟩
  · simp only [toStringLxml, toString, h]
    cases ser fastkml o v <;> rfl
  · simp only [kmlWriteLxml, kmlWrite, h]
    cases ser fastkml o v <;> rfl

/-- So all that C67 says holds of fastkml with lxml; for instance that a canonical document
is the same after `to_string` and `from_string`. -/
theorem C75_roundtrip {W : Etree} (hW : Faithful W) {c : Cls} {ns : Str} {nss : NsMap} {attrs : List (Str × Val Cls F)}
    (ht : typed fastkml dim23 (.obj c ns nss attrs) = true) (hl : Everywhere (Legal fastkml) (.obj c ns nss attrs))
    {M : NsMap} (hM : NsOk M) (h0 : nsGet (mergeNs M) [] = []) (h1 : nsGet (mergeNs M) (s% "kml") ≠ [])
    (hh : Everywhere (fun c ns nss _ => Home fastkml (mergeNs M) c ns nss) (.obj c ns nss attrs))
    (hcp : Everywhere (fun c ns nss attrs => Complete fastkml c ns nss attrs) (.obj c ns nss attrs))
    (hc : AllCanonical fastkml (mergeNs M) (.obj c ns nss attrs)) (pp : Bool) :
    ∃ t, toStringLxml W pp ⟨none, .normal⟩ (.obj c ns nss attrs) = .ok t ∧
      ∀ strict, fromString W strict c none M t = .ok (.obj c ns nss attrs) := by
  obtain ⟨t, h, h'⟩ := C67_roundtrip hW ht hl hM h0 h1 hh hcp hc pp
  exact ⟨t, (C75_legal ht hl _).2.1 W pp ▸ h, h'⟩

example (pp : Bool) : ∃ t, toStringLxml Lib.xmlLib pp ⟨none, .normal⟩ textKml = .ok t ∧
    ∀ strict, fromString Lib.xmlLib strict .KML none [] t = .ok textKml := by
  obtain ⟨h1, h2, h3, h4, h5⟩ := C67_textKml
  rw [textKml_obj]
  exact C75_roundtrip Lib.xmlLib_faithful h1 h2 (by intro p hp; cases hp) (by decide) (by decide) h3 h4 h5 pp

/-- **C75, files.** If a text of an object that is written has a character that XML does not
have, `to_string` and `KML.write` raise `ValueError` with lxml, and no file is changed. -/
theorem C75_file {P : Pt F → Bool} {v : Val Cls F} (ht : typed fastkml P v = true)
    (hn : ∀ c ns nss attrs, Reached fastkml (.obj c ns nss attrs) v → PlainNs ns nss) {o : Opts} {e : Xml}
    (he : ser fastkml o v = .ok e) {c : Cls} {ns : Str} {nss : NsMap} {attrs : List (Str × Val Cls F)}
    (hr : Reached fastkml (.obj c ns nss attrs) v) (hb : ¬ PlainTexts fastkml c attrs) (W : Etree) (pp : Bool) :
    toStringLxml W pp o v = .error (.kml .valueError) ∧
      ∀ fs p, kmlWriteLxml W fs p pp o v = (fs, .error (.kml .valueError)) := by
  obtain ⟨h1, h2⟩ := C75_iff ht hn he
  have h : serLxml fastkml o v = .error .valueError := h2 fun h => hb (h1.mp h _ _ _ _ hr)
  exact ⟨by simp only [toStringLxml, h], fun fs p => by simp only [kmlWriteLxml, h]⟩

/-- The folder of `C75_form_feed` meets the hypotheses: no file is written. -/
example (fs : FS) (W : Etree) (pp : Bool) (o : Opts) :
    kmlWriteLxml W fs (s% "d", s% "doc.kml") pp o formFeed = (fs, .error (.kml .valueError)) := by
  have hit : ∃ it ∈ fastkml.itemsOf .Placemark, it.attr = s% "description" ∧ scalar it.get = true := by decide +kernel
  have hif : ∃ it ∈ fastkml.itemsOf .Folder, it.attr = s% "features" ∧ place it.get = .objects := by decide +kernel
  obtain ⟨it, h1, h2, h3⟩ := hit
  obtain ⟨itf, g1, g2, g3⟩ := hif
  obtain ⟨ht, ⟨e, he⟩, _⟩ := C75_form_feed o
  refine (C75_file ht (fun _ _ _ _ hr => plainNs_of (by decide +kernel) hr) he
    (.member (l := [newObj .Placemark [(s% "description", .str ['a', Char.ofNat 12, 'b'])]]) g1 g3 ?_ List.mem_cons_self ?_ .self)
    (fun hp => ?_) W pp).2 fs _
  · rw [g2]; rfl
  · decide +kernel
  · have := hp it h1 h3 ['a', Char.ofNat 12, 'b'] (by rw [h2]; rfl) (Char.ofNat 12) (by simp)
    exact absurd (lxmlChar_iff.mpr this) (by decide)

end Verif
