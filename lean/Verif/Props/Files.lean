import Verif.Files
import Verif.Props.Namespaces

/-!
# C42, C43: writing files and validation
-/

set_option linter.unusedSectionVars false
set_option linter.unusedSimpArgs false

namespace Verif

open Spec

variable {F : Type} [PyExt F]

namespace Spec

/-- The name of a zipped file: something followed by `.kmz`. -/
def KmzName (name : Str) : Prop := ∃ stem, stem ≠ [] ∧ name = stem ++ (s% ".kmz")

/-- Validation was asked for: explicitly, or by default in strict mode. -/
def Requested (strict : Bool) (v : Option Bool) : Prop := v = some true ∨ (v = none ∧ strict = true)

end Spec

/-! ## C42 -/

theorem idxOf?_split {c : Char} {s : Str} {i : Nat} (h : s.idxOf? c = some i) :
    ∃ a b, s = a ++ c :: b ∧ c ∉ a ∧ a.length = i := by
  induction s generalizing i with
  | nil => simp at h
  | cons d s ih =>
    rw [List.idxOf?_cons] at h
    by_cases hd : d = c
    · subst hd
      simp at h
      exact ⟨[], s, by simp, by simp, by simpa using h⟩
    · have : (d == c) = false := by simpa using hd
      rw [this] at h
      simp only [Bool.false_eq_true, if_false, Option.map_eq_some_iff] at h
      obtain ⟨j, hj, rfl⟩ := h
      obtain ⟨a, b, rfl, hn, rfl⟩ := ih hj
      exact ⟨d :: a, b, by simp, by simp [hn, Ne.symm hd], by simp⟩

theorem idxOf?_append {c : Char} {a b : Str} (h : c ∉ a) : (a ++ c :: b).idxOf? c = some a.length := by
  induction a with
  | nil => simp [List.idxOf?_cons]
  | cons d a ih =>
    simp only [List.mem_cons, not_or] at h
    rw [List.cons_append, List.idxOf?_cons, ih h.2]
    have : (d == c) = false := by simpa using Ne.symm h.1
    simp [this]

theorem rfindDot_append {a b : Str} (h : '.' ∉ b) : rfindDot (a ++ '.' :: b) = some a.length := by
  have hr : (a ++ '.' :: b).reverse = b.reverse ++ '.' :: a.reverse := by simp
  rw [rfindDot, hr, idxOf?_append (by simpa using h)]
  simp

theorem rfindDot_split {s : Str} {i : Nat} (h : rfindDot s = some i) :
    ∃ a b, s = a ++ '.' :: b ∧ '.' ∉ b ∧ a.length = i := by
  simp only [rfindDot] at h
  split at h
  · rename_i j hj
    obtain ⟨a, b, he, hn, rfl⟩ := idxOf?_split hj
    refine ⟨b.reverse, a.reverse, by rw [← List.reverse_reverse s, he]; simp, by simpa using hn, ?_⟩
    have : s.length = a.length + (b.length + 1) := by
      have := congrArg List.length he; simpa using this
    cases h
    simp; omega
  · cases h

/-- **C42.** The suffix of a path is `.kmz` if and only if its name is something
followed by `.kmz`, in lower case. -/
theorem C42_suffix (name : Str) : suffix name = (s% ".kmz") ↔ KmzName name := by
  constructor
  · intro h
    simp only [suffix] at h
    split at h
    · rename_i i hi
      obtain ⟨a, b, rfl, hn, rfl⟩ := rfindDot_split hi
      split at h
      · rename_i hc
        simp at h
        refine ⟨a, ?_, by rw [h]⟩
        rintro rfl
        simp at hc
      · cases h
    · cases h
  · rintro ⟨a, ha, rfl⟩
    have : rfindDot (a ++ '.' :: ['k', 'm', 'z']) = some a.length := rfindDot_append (by decide)
    simp only [suffix, this]
    have hl : 0 < a.length := by
      cases a with
      | nil => exact absurd rfl ha
      | cons _ _ => simp
    rw [if_pos ⟨hl, by simp⟩]
    simp

example : KmzName (s% "a.b.kmz") ∧ ¬ KmzName (s% "a.KMZ") ∧ ¬ KmzName (s% ".kmz") := by
  refine ⟨⟨s% "a.b", by decide, rfl⟩, ?_, ?_⟩ <;> rw [← C42_suffix] <;> decide

theorem kmlWrite_eq (W : Etree) (fs : FS) (p : Str × Str) (pp : Bool) (o : Opts) (v : Val Cls F) :
    kmlWrite W fs p pp o v = match toString W pp o v with
      | .error x => (fs, .error x)
      | .ok t =>
        if suffix p.2 = (s% ".kmz") then (fs.put p (.zip [(s% "doc.kml", utf8 t)]), .ok ())
        else (fs.put p (.plain (utf8 t)), .ok ()) := by
  simp only [kmlWrite, toString]
  cases ser fastkml o v <;> rfl

/-- **C42.** If the object can be serialised, the file contains exactly the text of
`to_string` with the same arguments, in UTF-8: as the only member `doc.kml` of a zip
archive if the name of the file ends in `.kmz`, otherwise as such.  No other file
changes. -/
theorem C42_written (W : Etree) (fs : FS) (p : Str × Str) (pp : Bool) (o : Opts) (v : Val Cls F) (t : Str)
    (h : toString W pp o v = .ok t) :
    ∃ fs', kmlWrite W fs p pp o v = (fs', .ok ()) ∧
      (KmzName p.2 → fs' p = some (.zip [(s% "doc.kml", utf8 t)])) ∧
      (¬ KmzName p.2 → fs' p = some (.plain (utf8 t))) ∧ ∀ q, q ≠ p → fs' q = fs q := by
  rw [kmlWrite_eq, h]
  by_cases hk : suffix p.2 = (s% ".kmz")
  · refine ⟨_, if_pos hk, fun _ => by simp [FS.put], fun hn => absurd ((C42_suffix _).mp hk) hn,
      fun q hq => by simp [FS.put, hq]⟩
  · refine ⟨_, if_neg hk, fun hn => absurd ((C42_suffix _).mpr hn) hk, fun _ => by simp [FS.put],
      fun q hq => by simp [FS.put, hq]⟩

/-- **C42.** If it cannot, the exception is that of `to_string` and no file changes. -/
theorem C42_failed (W : Etree) (fs : FS) (p : Str × Str) (pp : Bool) (o : Opts) (v : Val Cls F) (x : FErr)
    (h : toString W pp o v = .error x) : kmlWrite W fs p pp o v = (fs, .error x) := by
  rw [kmlWrite_eq, h]

/-- **C42.** Decoding the bytes gives the text. -/
theorem C42_text (s : Str) : (utf8 s).toByteArray.utf8Decode? = some s.toArray := by
  have : (utf8 s).toByteArray = s.utf8Encode := rfl
  rw [this, List.utf8Decode?_utf8Encode]

/-- **C42.** Reading back a file that is not zipped parses the written text. -/
theorem C42_readback (W : Etree) (fs : FS) (p : Str × Str) (pp : Bool) (o : Opts) (v : Val Cls F) (t : Str)
    (h : toString W pp o v = .ok t) (hk : ¬ KmzName p.2) (strict : Bool) (e : Xml)
    (hr : W.recovering (.plain (utf8 t)) = .ok e) (ns : Option Str) (nss : Option NsMap) :
    (kmlParse W (kmlWrite W fs p pp o v).1 p ns nss strict (some false)).1 =
      (match parseRoot ns nss strict e with
        | .ok w => .ok w
        | .error x => .error (.kml x) : Except FErr (Val Cls F)) := by
  obtain ⟨fs', h1, _, h2, _⟩ := C42_written W fs p pp o v t h
  have hl : loadRoot W fs' p strict (some false) = .ok e := by
    simp [loadRoot, parseAndValidate, openFile, h2 hk, hr]
  rw [h1]
  simp only [kmlParse, hl]
  cases parseRoot (F := F) ns nss strict e <;> rfl

/-! ## C43 -/

/-- **C43.** `validate` needs exactly one of an element and a file. -/
theorem C43_usage (W : Etree) (fs : FS) (s : Option (Str × Str)) (e : Option Xml) (p : Option (Str × Str))
    (h : e.isSome = p.isSome) : validate W fs s e p = .error .valueError := by
  cases e <;> cases p <;> simp_all [validate]

theorem validate_element (W : Etree) (fs : FS) (s : Option (Str × Str)) (e : Xml) :
    validate W fs s (some e) none = match W.schema s with
      | .missing => .ok none
      | .error x => .error x
      | .schema S => if S.valid e then .ok (some true) else match handleValidation (S.log e) with
          | .error x => .error x
          | .ok _ => .error .assertionError := by
  simp only [validate]
  simp
  cases W.schema s with
  | missing => rfl
  | error x => rfl
  | schema S =>
    simp only
    by_cases hv : S.valid e = true
    · simp only [hv, if_true]
    · simp only [hv, if_false]
      cases handleValidation (S.log e) <;> rfl

/-- **C43.** A file is validated like its root element. -/
theorem C43_file (W : Etree) (fs : FS) (s : Option (Str × Str)) (p : Str × Str) (e : Xml)
    (h : openFile fs p W.plain = .ok e) : validate W fs s none (some p) = validate W fs s (some e) none := by
  rw [validate_element]
  simp only [validate]
  simp
  cases W.schema s with
  | missing => rfl
  | error x => rfl
  | schema S =>
    simp only [h]
    by_cases hv : S.valid e = true
    · simp only [hv, if_true]
    · simp only [hv, if_false]
      cases handleValidation (S.log e) <;> rfl

theorem handleValidation_eq (l : List XPath) :
    handleValidation l = if ∃ x ∈ l, x matches .empty then .error .indexError else .ok () := by
  induction l with
  | nil => simp [handleValidation]
  | cons x l ih => cases x <;> simp [handleValidation, ih]

/-- **C43.** The result is `None` if and only if the XML library has no schema
validation. -/
theorem C43_none (W : Etree) (fs : FS) (s : Option (Str × Str)) (e : Xml) :
    validate W fs s (some e) none = .ok none ↔ W.schema s = .missing := by
  rw [validate_element]
  cases hS : W.schema s with
  | missing => simp
  | error x => simp
  | schema S =>
    simp only [reduceCtorEq, iff_false]
    split
    · simp
    · split <;> simp

/-- **C43.** The result is `True` if and only if the document is valid; it is never
`False`. -/
theorem C43_true (W : Etree) (fs : FS) (s : Option (Str × Str)) (e : Xml) :
    (validate W fs s (some e) none = .ok (some true) ↔ ∃ S, W.schema s = .schema S ∧ S.valid e = true) ∧
      validate W fs s (some e) none ≠ .ok (some false) := by
  rw [validate_element]
  cases hS : W.schema s with
  | missing => simp
  | error x => simp
  | schema S =>
    by_cases hv : S.valid e = true
    · simp [hv]
    · simp only [hv, if_false, SchemaResult.schema.injEq, exists_eq_left']
      constructor
      · constructor
        · intro h; cases hh : handleValidation (S.log e) <;> rw [hh] at h <;> cases h
        · intro h; simp at h
      · intro h; cases hh : handleValidation (S.log e) <;> rw [hh] at h <;> cases h

/-- **C43.** `AssertionError` is raised if and only if the document is invalid, provided
the error log can be reported. -/
theorem C43_assertion (W : Etree) (fs : FS) (s : Option (Str × Str)) (e : Xml) (S : XSchema) (hS : W.schema s = .schema S)
    (hl : ∀ x ∈ S.log e, ¬ x matches .empty) :
    validate W fs s (some e) none = .error .assertionError ↔ S.valid e = false := by
  have hn : ¬ ∃ x ∈ S.log e, x matches .empty := by
    rintro ⟨x, hx, h⟩; exact hl x hx h
  rw [validate_element, hS]
  simp only [handleValidation_eq, if_neg hn]
  by_cases hv : S.valid e = true <;> simp [hv]

/-- **C43**, disagreement: an invalid document raises `IndexError` if the path of a
logged error selects no node. -/
theorem C43_index (W : Etree) (fs : FS) (s : Option (Str × Str)) (e : Xml) (S : XSchema) (hS : W.schema s = .schema S)
    (hv : S.valid e = false) (hl : ∃ x ∈ S.log e, x matches .empty) :
    validate W fs s (some e) none = .error .indexError := by
  rw [validate_element, hS]
  simp only [handleValidation_eq, if_pos hl, hv, Bool.false_eq_true, if_false]

example : ∃ (W : Etree) (S : XSchema), W.schema none = .schema S ∧ S.valid (.new []) = false ∧
    ∃ x ∈ S.log (.new []), x matches .empty :=
  ⟨{ toyEtree (.new []) false with schema := fun _ => .schema ⟨fun _ => false, fun _ => [.empty]⟩ },
    ⟨fun _ => false, fun _ => [.empty]⟩, rfl, rfl, .empty, by simp, rfl⟩

/-- **C43.** `KML.parse` validates if and only if it was asked to: then its root is the
parsed document if `validate` accepts that, and an exception of `validate` is passed on,
except `TypeError`. -/
theorem C43_parse (W : Etree) (fs : FS) (p : Str × Str) (strict : Bool) (v : Option Bool) (e : Xml)
    (h : openFile fs p W.recovering = .ok e) :
    (¬ Requested strict v → loadRoot W fs p strict v = .ok e) ∧
    (Requested strict v → (∀ b, validate W fs none (some e) none = .ok b → loadRoot W fs p strict v = .ok e) ∧
      ∀ x, validate W fs none (some e) none = .error x → x ≠ .typeError → loadRoot W fs p strict v = .error x) := by
  have hreq : ((if strict = true ∧ v = none then some true else v) = some true) ↔ Requested strict v := by
    simp only [Requested]
    cases v with
    | none => cases strict <;> simp
    | some b => cases b <;> simp
  constructor
  · intro hr
    simp only [loadRoot, parseAndValidate, h, if_neg (mt hreq.mp hr)]
  · intro hr
    constructor
    · intro b hb
      simp only [loadRoot, parseAndValidate, h, if_pos (hreq.mpr hr), hb]
    · intro x hx hne
      simp only [loadRoot, parseAndValidate, h, if_pos (hreq.mpr hr), hx]
      cases x <;> first | rfl | exact absurd rfl hne

/-- **C43.** So, with a library that validates, what is read after a requested
validation was valid. -/
theorem C43_valid (W : Etree) (fs : FS) (p : Str × Str) (strict : Bool) (va : Option Bool) (e : Xml) (S : XSchema)
    (ns : Option Str) (nss : Option NsMap) (v : Val Cls F)
    (h : openFile fs p W.recovering = .ok e) (hS : W.schema none = .schema S) (hr : Requested strict va)
    (hv : (kmlParse W fs p ns nss strict va).1 = .ok v) : S.valid e = true := by
  by_cases hval : S.valid e = true
  · exact hval
  · obtain ⟨_, h2⟩ := C43_parse W fs p strict va e h
    obtain ⟨_, h3⟩ := h2 hr
    have hx : ∃ x, validate W fs none (some e) none = .error x ∧ x ≠ .typeError := by
      rw [validate_element, hS]
      simp only [hval, Bool.false_eq_true, if_false, handleValidation_eq]
      by_cases hl : ∃ x ∈ S.log e, x matches .empty
      · exact ⟨.indexError, by rw [if_pos hl], by simp⟩
      · exact ⟨.assertionError, by rw [if_neg hl], by simp⟩
    obtain ⟨x, hx, hne⟩ := hx
    simp [kmlParse, h3 x hx hne] at hv

/-- **C43**, disagreement: with a library whose parser does not take these options, like
`xml.etree.ElementTree`, nothing is validated, even if this was asked for. -/
theorem C43_unvalidated (W : Etree) (fs : FS) (p : Str × Str) (strict : Bool) (v : Option Bool)
    (h : openFile fs p W.recovering = .error .typeError) : loadRoot W fs p strict v = openFile fs p W.plain := by
  simp [loadRoot, parseAndValidate, h]

/-- An invalid document is rejected by default in strict mode, and read otherwise. -/
example : Requested true none ∧ ¬ Requested true (some false) ∧ ¬ Requested false none ∧
    (match kmlParse (F := Fix) (toyEtree oldXml false) oneFile (s% "d", s% "f.kml") none none true none with
      | (.error .assertionError, _) => true
      | _ => false) = true ∧
    (match kmlParse (F := Fix) (toyEtree oldXml false) oneFile (s% "d", s% "f.kml") none none false none with
      | (.ok _, _) => true
      | _ => false) = true := by
  refine ⟨Or.inr ⟨rfl, rfl⟩, ?_, ?_, by decide +kernel, by decide +kernel⟩
  · rintro (h | ⟨h, _⟩) <;> cases h
  · rintro (h | ⟨_, h⟩) <;> cases h

/-- A document is written and read back by the library of the examples. -/
example : (match toString (toyEtree oldXml true) true ⟨none, .normal⟩ (newObj .KML [(s% "features", .list [sampleDoc])]) with
    | .ok t => decide (t.length > 100)
    | _ => false) = true := by decide +kernel

end Verif
