import Verif.Spec.Nodes
import Verif.Props.Reading
import Verif.Access

/-!
# C71: comments and processing instructions
-/

set_option linter.unusedSectionVars false
set_option linter.unusedSimpArgs false

namespace Verif

open Spec

variable {F : Type} [PyExt F]

theorem commented_text {d d' : List XNode} (h : Commented d d') : stdText d = stdText d' := by
  induction h with
  | nil => rfl
  | note s h ih => exact ih
  | cut a b h ih => simp only [stdText] at ih ⊢; rw [List.append_assoc, ih]
  | text s h ih => simp only [stdText, ih]
  | elem t a hn h ihn ih => rfl

theorem commented_nodes {d d' : List XNode} (h : Commented d d') :
    viewNodes stdText d = viewNodes stdText d' := by
  induction h with
  | nil => rfl
  | note s h ih => simpa only [viewNodes, viewNode, List.nil_append] using ih
  | cut a b h ih => simpa only [viewNodes, viewNode, List.nil_append] using ih
  | text s h ih => simpa only [viewNodes, viewNode, List.nil_append] using ih
  | elem t a hn h ihn ih => simp only [viewNodes, viewNode, ihn, ih, commented_text hn]

/-- **C71.** With `xml.etree.ElementTree` comments and processing instructions change nothing:
the tree that fastkml gets is the same, wherever they are. -/
theorem C71_etree (t : Str) (a : List (Str × Str)) {d d' : List XNode} (h : Commented d d') :
    viewRoot stdText t a d = viewRoot stdText t a d' := by
  simp only [viewRoot, commented_text h, commented_nodes h]

theorem uncommented_text {d : List XNode} (h : Uncommented d) : lxmlText d = stdText d := by
  induction h with
  | nil => rfl
  | text s h ih => simp only [stdText, lxmlText, ih]
  | elem t a hn h ihn ih => rfl

theorem uncommented_nodes {d : List XNode} (h : Uncommented d) : viewNodes lxmlText d = viewNodes stdText d := by
  induction h with
  | nil => rfl
  | text s h ih => simpa only [viewNodes, viewNode, List.nil_append] using ih
  | elem t a hn h ihn ih => simp only [viewNodes, viewNode, ihn, ih, uncommented_text hn]

/-- **C71.** The two libraries give the same tree for a document without comments and
processing instructions. -/
theorem C71_libraries (t : Str) (a : List (Str × Str)) {d : List XNode} (h : Uncommented d) :
    viewRoot lxmlText t a d = viewRoot stdText t a d := by
  simp only [viewRoot, uncommented_text h, uncommented_nodes h]

theorem before_eq : ∀ d : List XNode, before d = lxmlText d
  | [] => rfl
  | .text s :: r => by simp only [before, lxmlText, before_eq r]
  | .note _ :: _ => rfl
  | .elem _ _ _ :: _ => rfl

theorem rest_eq : ∀ d : List XNode, after.rest d = stdText d
  | [] => rfl
  | .text s :: r => by simp only [after.rest, stdText, rest_eq r]
  | .note _ :: r => by simp only [after.rest, stdText, rest_eq r]
  | .elem _ _ _ :: _ => rfl

theorem stdText_eq : ∀ d : List XNode, stdText d = lxmlText d ++ after d
  | [] => rfl
  | .text s :: r => by simp only [stdText, lxmlText, after, stdText_eq r, List.append_assoc]
  | .note _ :: r => by simp only [stdText, lxmlText, after, rest_eq, List.nil_append]
  | .elem _ _ _ :: _ => rfl

theorem strip_nil_of_blank {s : Str} (h : ∀ c ∈ s, isSpace c = true) : strip s = [] := by
  have := strip_eq_of_surround (a := s) (s := []) (b := []) h (by simp)
  simpa [strip, lstrip] using this

theorem strip_nil_blank {s : Str} (h : strip s = []) : ∀ c ∈ s, isSpace c = true := by
  obtain ⟨a, b, ha, hb, hs⟩ := strip_decomp s
  intro c hc
  rw [hs, h, List.append_nil, List.mem_append] at hc
  rcases hc with hc | hc
  · exact ha c hc
  · exact hb c hc

theorem trimmed_someText (s : Str) : trimmed (someText s) = if strip s = [] then none else some (strip s) := by
  unfold someText
  by_cases h : s = []
  · subst h; rfl
  · simp only [h, if_false, trimmed]

/-- The texts of an element whose comments are quiet. -/
theorem quiet_text {t : Str} {d : List XNode} (h : QuietIn t d) :
    trimmed (someText (lxmlText d)) = trimmed (someText (stdText d)) ∧
    (localName t ∈ [s% "coordinates", s% "coord", s% "angles", s% "when"] →
      (someText (lxmlText d)).map strip = (someText (stdText d)).map strip) ∧
    (localName t ∈ [s% "coord", s% "angles"] →
      someText (lxmlText d) = someText (stdText d) ∨ trimmed (someText (lxmlText d)) ≠ none) ∧
    (localName t = s% "when" → someText (lxmlText d) = someText (stdText d)) := by
  have hst : strip (lxmlText d ++ after d) = strip (lxmlText d) := by
    have := strip_eq_of_surround (a := []) (s := lxmlText d) (b := after d) (by simp) h.blank
    simpa using this
  have hsame : after d = [] → someText (lxmlText d) = someText (stdText d) := by
    intro h0; rw [stdText_eq, h0, List.append_nil]
  have hne : (∃ c ∈ before d, isSpace c = false) → strip (lxmlText d) ≠ [] ∧ lxmlText d ≠ [] := by
    rintro ⟨c, hc, hs⟩
    rw [before_eq] at hc
    refine ⟨fun h0 => ?_, List.ne_nil_of_mem hc⟩
    rw [strip_nil_blank h0 c hc] at hs
    cases hs
  refine ⟨?_, fun ht => ?_, fun ht => ?_, fun ht => hsame (h.when_ ht)⟩
  · rw [trimmed_someText, trimmed_someText, stdText_eq, hst]
  · by_cases hw : localName t = s% "when"
    · rw [hsame (h.when_ hw)]
    · have : localName t ∈ [s% "coordinates", s% "coord", s% "angles"] := by
        simp only [List.mem_cons, List.not_mem_nil, or_false] at ht ⊢
        rcases ht with h | h | h | h
        · exact .inl h
        · exact .inr (.inl h)
        · exact .inr (.inr h)
        · exact absurd h hw
      rcases h.kept this with h0 | h0
      · rw [hsame h0]
      · obtain ⟨_, h2⟩ := hne h0
        have h3 : stdText d ≠ [] := by rw [stdText_eq]; simp [h2]
        simp only [someText, h2, h3, if_false, Option.map_some]
        rw [stdText_eq, hst]
  · have : localName t ∈ [s% "coordinates", s% "coord", s% "angles"] := by
      simp only [List.mem_cons, List.not_mem_nil, or_false] at ht ⊢
      rcases ht with h | h
      · exact .inr (.inl h)
      · exact .inr (.inr h)
    rcases h.kept this with h0 | h0
    · exact .inl (hsame h0)
    · right
      obtain ⟨h1, h2⟩ := hne h0
      simp [trimmed_someText, h1]

theorem quiet_nodes {d : List XNode} (h : Quiet d) :
    (viewNodes lxmlText d).length = (viewNodes stdText d).length ∧
    ∀ p ∈ (viewNodes lxmlText d).zip (viewNodes stdText d), Respaced p.1 p.2 := by
  induction h with
  | nil => exact ⟨rfl, by simp [viewNodes]⟩
  | text s h ih => simpa only [viewNodes, viewNode, List.nil_append] using ih
  | note s h ih => simpa only [viewNodes, viewNode, List.nil_append] using ih
  | elem t a ht hn h ihn ih =>
    simp only [viewNodes, viewNode, List.cons_append, List.nil_append, List.length_cons, ih.1, true_and]
    intro p hp
    rw [List.zip_cons_cons, List.mem_cons] at hp
    rcases hp with rfl | hp
    · obtain ⟨h1, h2, h3, h4⟩ := quiet_text ht
      exact .mk h1 h2 h3 h4 ihn.1 ihn.2
    · exact ih.2 p hp

theorem quiet_respaced {t : Str} (a : List (Str × Str)) {d : List XNode} (ht : QuietIn t d) (h : Quiet d) :
    Respaced (viewRoot lxmlText t a d) (viewRoot stdText t a d) := by
  obtain ⟨h1, h2, h3, h4⟩ := quiet_text ht
  exact .mk h1 h2 h3 h4 (quiet_nodes h).1 (quiet_nodes h).2

/-- **C71.** If no comment separates a value then both libraries lead to the same objects,
or to the same error. -/
theorem C71_same (strict : Bool) (c : Cls) (ns : Str) (nss : NsMap) (hns : NsOk nss)
    (t : Str) (a : List (Str × Str)) {d : List XNode} (ht : QuietIn t d) (hd : Quiet d)
    (hc : c = .Coordinates → localName t = s% "coordinates") :
    parse (F := F) fastkml strict (viewRoot lxmlText t a d) c ns nss =
      parse fastkml strict (viewRoot stdText t a d) c ns nss :=
  C47_respaced strict c ns nss hns _ _ (quiet_respaced a ht hd) hc

/-- **C71.** With `lxml` too, comments that do not separate a value change nothing. -/
theorem C71_lxml (strict : Bool) (c : Cls) (ns : Str) (nss : NsMap) (hns : NsOk nss)
    (t : Str) (a : List (Str × Str)) {d d' : List XNode} (h : Commented d d') (hd : Uncommented d)
    (ht : QuietIn t d') (hd' : Quiet d') (hc : c = .Coordinates → localName t = s% "coordinates") :
    parse (F := F) fastkml strict (viewRoot lxmlText t a d') c ns nss =
      parse fastkml strict (viewRoot lxmlText t a d) c ns nss := by
  rw [C71_same strict c ns nss hns t a ht hd' hc, C71_libraries t a hd, C71_etree t a h]

/-- **C71.** The same for `KML.parse`, which finds the namespace itself. -/
theorem C71_file (strict : Bool) (ns : Option Str) (nss : Option NsMap)
    (t : Str) (a : List (Str × Str)) {d d' : List XNode} (h : Commented d d') (hd : Uncommented d)
    (ht : QuietIn t d') (hd' : Quiet d') (hns : NsOk (parseNss (detectNs ns (.mk t a none [])) (nss.getD []))) :
    parseRoot (F := F) ns nss strict (viewRoot lxmlText t a d') =
      parseRoot ns nss strict (viewRoot lxmlText t a d) := by
  have h1 : ∀ x, detectNs ns (viewRoot lxmlText t a x) = detectNs ns (.mk t a none []) := fun _ => by
    cases ns <;> rfl
  simp only [parseRoot, h1]
  exact C71_lxml strict .KML _ _ (nsOk_merge hns) t a h hd ht hd' (fun h => by cases h)

/-! ## Cases -/

/-- A placemark with a comment after each tag and after the value. -/
def quietDoc : List XNode :=
  [.note (s% " one "), .text (s% "\n "), .elem (kmlNs ++ s% "name") [] [.text (s% " Home "), .note (s% "two")],
   .note (s% "three"), .elem (kmlNs ++ s% "Point") [] [.note (s% "four"), .text (s% "\n"), .elem (kmlNs ++ s% "coordinates") []
     [.text (s% "1,2"), .note (s% "five"), .text (s% "\n")]], .text (s% "\n")]

/-- The same without comments. -/
def plainDoc : List XNode :=
  [.text (s% "\n "), .elem (kmlNs ++ s% "name") [] [.text (s% " Home ")],
   .elem (kmlNs ++ s% "Point") [] [.text (s% "\n"), .elem (kmlNs ++ s% "coordinates") []
     [.text (s% "1,2"), .text (s% "\n")]], .text (s% "\n")]

theorem quietDoc_commented : Commented plainDoc quietDoc := by
  unfold plainDoc quietDoc
  refine .note _ (.text _ (.elem _ _ (.text _ (.note _ .nil)) (.note _ (.elem _ _ ?_ (.text _ .nil)))))
  exact .note _ (.text _ (.elem _ _ (.text _ (.note _ (.text _ .nil))) .nil))

theorem plainDoc_uncommented : Uncommented plainDoc := by
  unfold plainDoc
  refine .text _ (.elem _ _ (.text _ .nil) (.elem _ _ ?_ (.text _ .nil)))
  exact .text _ (.elem _ _ (.text _ (.text _ .nil)) .nil)

theorem quietDoc_quietIn : QuietIn (kmlNs ++ s% "Placemark") quietDoc := ⟨by decide, by decide, by decide⟩

theorem quietDoc_quiet : Quiet quietDoc := by
  unfold quietDoc
  refine .note _ (.text _ (.elem _ _ ⟨by decide, by decide, by decide⟩ (.text _ (.note _ .nil))
    (.note _ (.elem _ _ ⟨by decide, by decide, by decide⟩ ?_ (.text _ .nil)))))
  refine .note _ (.text _ (.elem _ _ ⟨by decide, fun _ => .inr ⟨'1', by decide, by decide⟩, by decide⟩ ?_ .nil))
  exact .text _ (.note _ (.text _ .nil))

/-- The placemark with the content `d`, read with a library. -/
def readPlacemark (lead : List XNode → Str) (d : List XNode) : Except Err (Val Cls F) :=
  parse fastkml true (viewRoot lead (kmlNs ++ s% "Placemark") [] d) .Placemark kmlNs []

example : readPlacemark (F := F) lxmlText quietDoc = readPlacemark lxmlText plainDoc :=
  C71_lxml true .Placemark kmlNs [] (fun _ h => by cases h) _ _ quietDoc_commented plainDoc_uncommented
    quietDoc_quietIn quietDoc_quiet (fun h => by cases h)

example : readPlacemark (F := F) lxmlText quietDoc = readPlacemark stdText quietDoc :=
  C71_same true .Placemark kmlNs [] (fun _ h => by cases h) _ _ quietDoc_quietIn quietDoc_quiet (fun h => by cases h)

/-- The name of what was read; `none` is an error. -/
def nameRead : Except Err (Val Cls Fix) → Option (Option Str)
  | .ok v => match field (s% "name") v with
    | .str s => some (some s)
    | _ => some none
  | .error _ => none

/-- The number. -/
def num (n : Int) : Fix := PyExt.ofInt n

/-- The coordinates of a point or line that was read. -/
def coordsRead : Except Err (Val Cls Fix) → Option (List (List Fix))
  | .ok v => match field (s% "coords") (field (s% "kml_coordinates") v) with
    | .coords l => some l
    | _ => none
  | .error _ => none

/-- The name and the coordinates are there. -/
example : nameRead (readPlacemark lxmlText quietDoc) = some (some (s% "Home")) ∧
    coordsRead ((readPlacemark lxmlText quietDoc).map (field (s% "kml_geometry"))) = some [[num 1, num 2]] := by
  constructor <;> decide +kernel

/-- The hypotheses of `C71_file`. -/
example (strict : Bool) : parseRoot (F := F) none none strict (viewRoot lxmlText (kmlNs ++ s% "kml") []
      [.note (s% "c"), .elem (kmlNs ++ s% "Placemark") [] quietDoc]) =
    parseRoot none none strict (viewRoot lxmlText (kmlNs ++ s% "kml") [] [.elem (kmlNs ++ s% "Placemark") [] plainDoc]) := by
  refine C71_file strict none none _ _ (.note _ (.elem _ _ quietDoc_commented .nil)) (.elem _ _ plainDoc_uncommented .nil)
    ⟨by decide, by decide, by decide⟩ (.note _ (.elem _ _ quietDoc_quietIn quietDoc_quiet .nil)) ?_
  intro p hp
  have h : parseNss (detectNs none (.mk (kmlNs ++ s% "kml") [] none [])) ((none : Option NsMap).getD []) =
      [(s% "kml", kmlNs)] := by decide +kernel
  rw [h, List.mem_singleton] at hp
  subst hp
  exact .inr ⟨s% "{http://www.opengis.net/kml/2.2", rfl⟩

/-- A comment in the middle of a text is added with `cut`. -/
example : Commented [.text (s% "ab")] [.text (s% "a"), .note (s% "c"), .text (s% "b")] :=
  .cut (s% "a") (s% "b") (.note _ (.text _ .nil))

/-! ## Disagreements -/

/-- A placemark whose name is after a comment. -/
def noteFirst : List XNode :=
  [.elem (kmlNs ++ s% "name") [] [.note (s% " translated "), .text (s% "Home")]]

/-- A line with a comment between two of its coordinates. -/
def noteInside : List XNode :=
  [.elem (kmlNs ++ s% "coordinates") [] [.text (s% "0,0 1,1 "), .note (s% " detour "), .text (s% " 2,2")]]

/-- **C71**, disagreement: with `lxml` a value after a comment is lost, in strict mode and
without an error; with `xml.etree.ElementTree` it is read. -/
theorem C71_value_lost :
    nameRead (readPlacemark lxmlText noteFirst) = some none ∧
    nameRead (readPlacemark stdText noteFirst) = some (some (s% "Home")) := by
  constructor <;> decide +kernel

/-- The line with the content `d`, read with a library. -/
def readLine (lead : List XNode → Str) (d : List XNode) : Except Err (Val Cls F) :=
  parse fastkml true (viewRoot lead (kmlNs ++ s% "LineString") [] d) .LineString kmlNs []

/-- **C71**, disagreement: with `lxml` a comment in the coordinates cuts off the points after
it, in strict mode and without an error. -/
theorem C71_points_lost :
    coordsRead (readLine lxmlText noteInside) = some [[num 0, num 0], [num 1, num 1]] ∧
    coordsRead (readLine stdText noteInside) = some [[num 0, num 0], [num 1, num 1], [num 2, num 2]] := by
  constructor <;> decide +kernel

/-- A track whose first time is followed by a comment and a blank. -/
def noteWhen : List XNode :=
  [.elem (kmlNs ++ s% "when") [] [.text (s% "2020"), .note (s% "c"), .text (s% " ")],
   .elem (s% "{http://www.google.com/kml/ext/2.2}coord") [] [.text (s% "1 2")]]

/-- The track with the content `d`, read with a library. -/
def readTrack (lead : List XNode → Str) (d : List XNode) : Except Err (Val Cls F) :=
  parse fastkml true (viewRoot lead (kmlNs ++ s% "Track") [] d) .Track kmlNs []

/-- **C71**, the condition on `when`: a blank after the comment is part of the text with
`xml.etree.ElementTree` only, and there it is an error. -/
theorem C71_when : (readTrack (F := Fix) lxmlText noteWhen).isOk = true ∧
    (readTrack (F := Fix) stdText noteWhen).isOk = false := by
  constructor <;> decide +kernel

end Verif
