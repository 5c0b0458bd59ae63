import Verif.Lemmas.Stable
import Verif.Props.Writing
import Verif.Decide

/-!
# C01, C02, C04, C15: writing and reading back

The XML text layer is not modelled: what is written is the element tree that
`etree_element()` returns, and what is read is the element tree that the XML
parser returns; the two are the same tree.
-/

set_option linter.unusedSectionVars false
set_option linter.unusedSimpArgs false

namespace Verif

open Spec

variable {F : Type} [PyExt F]

/-! ## A sample -/

/-- `cls(**kw)`. -/
def newObj (c : Cls) (kw : List (Str × Val Cls Fix)) : Val Cls Fix :=
  match init fastkml c none [] kw with
  | .ok v => v
  | .error _ => .none

/-- The default mapping. -/
def N0 : NsMap := mergeNs []

/-- A placemark with a line. -/
def sampleMark (name : Str) (l : List (Pt Fix)) : Val Cls Fix := newObj .Placemark [
  (s% "name", .str name),
  (s% "kml_geometry", newObj .LineString [
    (s% "altitude_mode", .enum .altitudeMode (s% "clampToSeaFloor")), (s% "tessellate", .bool false),
    (s% "kml_coordinates", newObj .Coordinates [(s% "coords", .coords l)])]),
  (s% "extended_data", newObj .ExtendedData [(s% "elements", .list [
    newObj .Data [(s% "name", .str (s% "k")), (s% "value", .str (s% "v w"))]])])]

/-- A document with a style, a schema, a folder with a placemark, and a placemark. -/
def sampleDoc : Val Cls Fix := newObj .Document [
  (s% "id", .str (s% " d")), (s% "name", .str (s% "n")), (s% "visibility", .bool false),
  (s% "style_url", newObj .StyleUrl [(s% "url", .str (s% "#s"))]),
  (s% "styles", .list [newObj .Style [(s% "id", .str (s% "s")), (s% "styles", .list [
    newObj .LineStyle [(s% "width", .float (fx 2500000)), (s% "color", .str (s% "ff00ff00"))]])]]),
  (s% "schemata", .list [newObj .Schema [(s% "id", .str (s% "sc")), (s% "name", .str (s% "x")),
    (s% "fields", .list [newObj .SimpleField [(s% "name", .str (s% "f")),
      (s% "type_", .enum .dataType (s% "string"))]])]]),
  (s% "features", .list [
    newObj .Folder [(s% "features", .list [sampleMark (s% "a") [[fx 1, fx 2], [fx 3, fx (-4)]]])],
    sampleMark (s% "b") [[fx 1, fx 2, fx 7], [fx 3, fx (-4), fx 8]]])]

example : typed fastkml dim23 sampleDoc = true := by decide +kernel

example : everywhereB (fun c _ nss attrs => canonicalB fastkml N0 c nss attrs) sampleDoc = true := by decide +kernel
example : everywhereB (fun c ns nss _ => homeB fastkml N0 c ns nss) sampleDoc = true := by decide +kernel
example : everywhereB (fun c _ _ attrs => completeB fastkml c attrs) sampleDoc = true := by decide +kernel

/-! ## C02: what a cycle does -/

section
variable [LawfulExt F]

/-- **C02.** Reading back what was written for an object gives the object
`cycle fastkml o N v`: text is trimmed, empty children are gone, lists are grouped by
class, the verbosity rules are applied, coordinates are rounded to the precision,
and nothing else changes (see `Spec.cycle`).  `Readable` says that what is written
is in namespaces in which it is looked for, and excludes the times and tracks for
which this fails. -/
theorem C02_cycle {c : Cls} {ns : Str} {nss : NsMap} {attrs : List (Str × Val Cls F)}
    (ht : typed fastkml dim23 (.obj c ns nss attrs) = true) {M : NsMap} (hM : NsOk M) {o : Opts}
    (hr : Everywhere (Readable fastkml o (mergeNs M)) (.obj c ns nss attrs)) (strict : Bool) :
    ∃ e, ser fastkml o (.obj c ns nss attrs) = .ok e ∧
      fromElement fastkml strict c (some ns) M e = .ok (cycle fastkml o (mergeNs M) (.obj c ns nss attrs)) := by
  obtain ⟨e, he⟩ := C54_succeeds ht o
  refine ⟨e, he, ?_⟩
  unfold fromElement
  exact parse_ser (nsOk_merge hM) (mergeNs_idem M) fastkml_readOk fastkml_writeOk fastkml_boolOk fastkml_cycleOk
    fastkml_namesOk strict _ ht hr c ns nss attrs rfl e he

/-- A folder that is not canonical: blank text, text with spaces around, an
integer for a float, an empty child, members in mixed order. -/
def rawFolder : Val Cls Fix := .obj .Folder (nsGet N0 (s% "kml")) N0 [
  (s% "id", .str (s% " i ")), (s% "description", .str (s% "  ")), (s% "name", .str (s% " f g ")),
  (s% "extended_data", newObj .ExtendedData []),
  (s% "styles", .list [newObj .Style [(s% "styles", .list [newObj .LineStyle [(s% "width", .int 2)]])],
    newObj .StyleMap []]),
  (s% "features", .list [newObj .Placemark [(s% "name", .str (s% "p"))], newObj .Folder [],
    newObj .Placemark [(s% "name", .str (s% "q"))]]), (s% "target_id", .str [])]

/-- The result of a cycle. -/
example : cycle fastkml ⟨none, .normal⟩ N0 rawFolder = newObj .Folder [
    (s% "id", .str (s% " i ")), (s% "name", .str (s% "f g")),
    (s% "styles", .list [newObj .Style [(s% "styles", .list [newObj .LineStyle [(s% "width", .float (fx 2000000))]])]]),
    (s% "features", .list [newObj .Folder [], newObj .Placemark [(s% "name", .str (s% "p"))],
      newObj .Placemark [(s% "name", .str (s% "q"))]])] := by decide +kernel

/-- An object tree in the default namespaces of `N` can be read back with the
mapping `N` if its times, tracks and schemata are complete. -/
theorem C02_readable {P : Pt F → Bool} {v : Val Cls F} (ht : Everywhere (fun c _ _ attrs => objOk fastkml P c attrs = true) v)
    {N : NsMap} (h0 : nsGet N [] = []) (h1 : nsGet N (s% "kml") ≠ [])
    (hh : Everywhere (fun c ns nss _ => Home fastkml N c ns nss) v)
    (hc : Everywhere (fun c ns nss attrs => Complete fastkml c ns nss attrs) v) (o : Opts) :
    Everywhere (Readable fastkml o N) v := by
  intro c ns nss attrs hin
  have hk : (fastkml.info c).special = .kml → nsGet N (fastkml.info c).nsid ≠ [] := by
    have : ∀ c ∈ Cls.all, (fastkml.info c).special = .kml → (fastkml.info c).nsid = s% "kml" := by decide +kernel
    intro h
    rw [this c (Cls.mem_all c) h]; exact h1
  exact readable_home (fastkml_homeOk c) (fastkml_writeOk c) o (ht _ _ _ _ hin) h0 hk
    (fun c' n' s' a' hin' => hh _ _ _ _ (hin'.trans hin)) (hc _ _ _ _ hin)

/-- The folder above meets the hypotheses. -/
theorem rawFolder_readable (o : Opts) : Everywhere (Readable fastkml o (mergeNs [])) rawFolder :=
  C02_readable (P := dim23)
    (everywhere_of (q := fun c _ _ attrs => objOk fastkml dim23 c attrs) (fun _ _ _ _ h => h) (by decide +kernel))
    (by decide +kernel) (by decide +kernel)
    (everywhere_of (q := fun c ns nss _ => homeB fastkml N0 c ns nss) (fun _ _ _ _ h => of_decide_eq_true h)
      (by decide +kernel))
    (everywhere_of (q := fun c _ _ attrs => completeB fastkml c attrs) (fun _ _ _ _ h => completeB_sound h)
      (by decide +kernel)) o

example : typed fastkml dim23 rawFolder = true ∧ NsOk [] ∧
    Everywhere (Readable fastkml ⟨some 3, .verbose⟩ (mergeNs [])) rawFolder :=
  ⟨by decide +kernel, (fun p hp => absurd hp (by simp)), rawFolder_readable _⟩

/-! ## C01: canonical objects survive -/

/-- **C01.** A canonical object tree is read back unchanged, in strict and in
lenient mode, for every namespace mapping of the reader. -/
theorem C01_roundtrip {c : Cls} {ns : Str} {nss : NsMap} {attrs : List (Str × Val Cls F)}
    (ht : typed fastkml dim23 (.obj c ns nss attrs) = true) {M : NsMap} (hM : NsOk M)
    (hr : Everywhere (Readable fastkml ⟨none, .normal⟩ (mergeNs M)) (.obj c ns nss attrs))
    (hc : AllCanonical fastkml (mergeNs M) (.obj c ns nss attrs)) (strict : Bool) :
    ∃ e, ser fastkml ⟨none, .normal⟩ (.obj c ns nss attrs) = .ok e ∧
      fromElement fastkml strict c (some ns) M e = .ok (.obj c ns nss attrs) := by
  obtain ⟨e, he, h⟩ := C02_cycle ht hM hr strict
  refine ⟨e, he, ?_⟩
  rw [h, cycle_canonical fastkml_readOk (changes_normal fastkml_cycleOk _) _ ht hc ⟨_, _, _, _, rfl⟩, mapScalars_id]

/-- **C01** for objects in their default namespaces: the namespace need not be
given when reading. -/
theorem C01_default {c : Cls} {ns : Str} {nss : NsMap} {attrs : List (Str × Val Cls F)}
    (ht : typed fastkml dim23 (.obj c ns nss attrs) = true) {M : NsMap} (hM : NsOk M)
    (h0 : nsGet (mergeNs M) [] = []) (h1 : nsGet (mergeNs M) (s% "kml") ≠ [])
    (hh : Everywhere (fun c ns nss _ => Home fastkml (mergeNs M) c ns nss) (.obj c ns nss attrs))
    (hcp : Everywhere (fun c ns nss attrs => Complete fastkml c ns nss attrs) (.obj c ns nss attrs))
    (hc : AllCanonical fastkml (mergeNs M) (.obj c ns nss attrs)) (strict : Bool) :
    ∃ e, ser fastkml ⟨none, .normal⟩ (.obj c ns nss attrs) = .ok e ∧
      fromElement fastkml strict c none M e = .ok (.obj c ns nss attrs) := by
  obtain ⟨e, he, h⟩ := C01_roundtrip ht hM 
    (C02_readable (objOk_everywhere fastkml_readOk _ ht hc ⟨_, _, _, _, rfl⟩) h0 h1 hh hcp _) hc strict
  refine ⟨e, he, ?_⟩
  have := (hh c ns nss attrs .self).2
  unfold fromElement at h ⊢
  simp only [Option.getD_some, Option.getD_none] at h ⊢
  rw [← this]; exact h

/-- The sample meets the hypotheses. -/
example : ∃ c ns nss attrs, sampleDoc = .obj c ns nss attrs ∧ typed fastkml dim23 sampleDoc = true ∧
    Everywhere (fun c ns nss _ => Home fastkml (mergeNs []) c ns nss) sampleDoc ∧
    Everywhere (fun c ns nss attrs => Complete fastkml c ns nss attrs) sampleDoc ∧
    AllCanonical fastkml (mergeNs []) sampleDoc := by
  refine ⟨_, _, _, _, rfl, ?_, ?_, ?_, ?_⟩
  · decide +kernel
  · exact everywhere_of (q := fun c ns nss _ => homeB fastkml N0 c ns nss) (fun _ _ _ _ h => of_decide_eq_true h)
      (by decide +kernel)
  · exact everywhere_of (q := fun c _ _ attrs => completeB fastkml c attrs) (fun _ _ _ _ h => completeB_sound h)
      (by decide +kernel)
  · exact everywhere_of (q := fun c _ nss attrs => canonicalB fastkml N0 c nss attrs)
      (fun _ _ _ _ h => canonicalB_sound h) (by decide +kernel)

/-! ## C04, C03: reading verbose and terse output -/

/-- **C04.** Reading the verbose output of a canonical object gives the object with
every unset attribute that has a default set to that default, and nothing else
changed. -/
theorem C04_read {c : Cls} {ns : Str} {nss : NsMap} {attrs : List (Str × Val Cls F)}
    (ht : typed fastkml dim23 (.obj c ns nss attrs) = true) {M : NsMap} (hM : NsOk M)
    (hr : Everywhere (Readable fastkml ⟨none, .verbose⟩ (mergeNs M)) (.obj c ns nss attrs))
    (hc : AllCanonical fastkml (mergeNs M) (.obj c ns nss attrs)) (strict : Bool) :
    ∃ e, ser fastkml ⟨none, .verbose⟩ (.obj c ns nss attrs) = .ok e ∧
      fromElement fastkml strict c (some ns) M e = .ok (fillDefaults fastkml (.obj c ns nss attrs)) := by
  obtain ⟨e, he, h⟩ := C02_cycle ht hM hr strict
  refine ⟨e, he, ?_⟩
  rw [h, cycle_canonical fastkml_readOk (changes_verbose fastkml_readOk fastkml_cycleOk fastkml_defaultsOk _) _ ht hc
    ⟨_, _, _, _, rfl⟩]
  rfl

/-- **C03.** Reading the terse output of a canonical object gives the object with
every attribute that has the default value unset, and nothing else changed. -/
theorem C03_read {c : Cls} {ns : Str} {nss : NsMap} {attrs : List (Str × Val Cls F)}
    (ht : typed fastkml dim23 (.obj c ns nss attrs) = true) {M : NsMap} (hM : NsOk M)
    (hr : Everywhere (Readable fastkml ⟨none, .terse⟩ (mergeNs M)) (.obj c ns nss attrs))
    (hc : AllCanonical fastkml (mergeNs M) (.obj c ns nss attrs)) (strict : Bool) :
    ∃ e, ser fastkml ⟨none, .terse⟩ (.obj c ns nss attrs) = .ok e ∧
      fromElement fastkml strict c (some ns) M e = .ok (dropDefaults fastkml (.obj c ns nss attrs)) := by
  obtain ⟨e, he, h⟩ := C02_cycle ht hM hr strict
  refine ⟨e, he, ?_⟩
  rw [h, cycle_canonical fastkml_readOk (changes_terse fastkml_readOk fastkml_cycleOk fastkml_defaultsOk _) _ ht hc
    ⟨_, _, _, _, rfl⟩]
  rfl

/-- In the sample there are defaults to fill in and to drop. -/
example : fillDefaults fastkml sampleDoc ≠ sampleDoc ∧ dropDefaults fastkml sampleDoc ≠ sampleDoc := by decide +kernel

/-! ## C15: stability -/

/-- **C15.** If no object inside the object `v₁` that was read back is empty, then
writing and reading `v₁` gives `v₁` again. -/
theorem C15_stable {c : Cls} {ns : Str} {nss : NsMap} {attrs : List (Str × Val Cls F)}
    (ht : typed fastkml dim23 (.obj c ns nss attrs) = true) {M : NsMap} (hM : NsOk M) {vb : Verbosity}
    (hr : Everywhere (Readable fastkml ⟨none, vb⟩ (mergeNs M)) (.obj c ns nss attrs))
    (hs : Everywhere (fun c _ _ attrs => SchemaId fastkml c attrs) (.obj c ns nss attrs)) {e : Xml}
    (he : ser fastkml ⟨none, vb⟩ (.obj c ns nss attrs) = .ok e) {strict : Bool} {v₁ : Val Cls F}
    (h₁ : fromElement fastkml strict c (some ns) M e = .ok v₁)
    (hne : Everywhere (fun _ _ _ attrs => NoEmptyChild fastkml attrs) v₁) (strict' : Bool) :
    ∃ e₁, ser fastkml ⟨none, .normal⟩ v₁ = .ok e₁ ∧ fromElement fastkml strict' c (some ns) M e₁ = .ok v₁ := by
  obtain ⟨e', he', h⟩ := C02_cycle ht hM hr strict
  rw [he] at he'
  cases he'
  rw [h₁] at h
  cases h
  have hcan := canonical_cycle fastkml_readOk fastkml_writeOk fastkml_cycleOk fastkml_classesNodup roundOk_dim23
    ⟨none, vb⟩ (mergeNs M) ht ⟨_, _, _, _, rfl⟩ hne
  have hread := readable_cycle fastkml_readOk fastkml_writeOk fastkml_cycleOk fastkml_homeOk vb (mergeNs M) ht
    ⟨_, _, _, _, rfl⟩ hr hs
  have hty := typed_cycle fastkml_readOk fastkml_writeOk fastkml_cycleOk roundOk_dim23 ⟨none, vb⟩ (mergeNs M) _ ht
  rw [cycle_obj] at hcan hread hty ⊢
  exact C01_roundtrip hty hM hread hcan strict'

end

/-- The folder meets the hypotheses. -/
example : Everywhere (fun c _ _ attrs => SchemaId fastkml c attrs) rawFolder ∧
    Everywhere (fun _ _ _ attrs => NoEmptyChild fastkml attrs) (cycle fastkml ⟨none, .normal⟩ N0 rawFolder) :=
  ⟨everywhere_of (q := fun c _ _ _ => decide ((fastkml.info c).special ≠ .schema))
      (fun _ _ _ _ h hs => absurd hs (of_decide_eq_true h)) (by decide +kernel),
    everywhere_of (q := fun _ _ _ attrs => noEmptyChildB fastkml attrs) (fun _ _ _ _ h => noEmptyChildB_sound h)
      (by decide +kernel)⟩

/-- **C15.** Without that condition this fails: a style map with only an empty pair is
not empty, so it is written; read back it has no pairs and is not written again. -/
theorem C15_not_stable : ∃ (v v₁ v₂ : Val Cls Fix) (e e₁ : Xml), typed fastkml dim23 v = true ∧
    ser fastkml ⟨none, .normal⟩ v = .ok e ∧ fromElement fastkml true .Document none [] e = .ok v₁ ∧
    ser fastkml ⟨none, .normal⟩ v₁ = .ok e₁ ∧ fromElement fastkml true .Document none [] e₁ = .ok v₂ ∧ v₂ ≠ v₁ := by
  let v := newObj .Document [(s% "styles", .list [newObj .StyleMap [(s% "pairs", .list [newObj .Pair []])]])]
  let e := (ser fastkml ⟨none, .normal⟩ v).toOption.getD default
  let v₁ := (fromElement fastkml true .Document none [] e : Except Err (Val Cls Fix)).toOption.getD .none
  let e₁ := (ser fastkml ⟨none, .normal⟩ v₁).toOption.getD default
  let v₂ := (fromElement fastkml true .Document none [] e₁ : Except Err (Val Cls Fix)).toOption.getD .none
  have getOk : ∀ {α : Type} (d : α) (x : Except Err α), (match x with | .ok _ => true | .error _ => false) = true →
      x = .ok (x.toOption.getD d) := by
    intro α d x h; cases x <;> simp [Except.toOption] at h ⊢
  exact ⟨v, v₁, v₂, e, e₁, by decide +kernel, getOk _ _ (by decide +kernel), getOk _ _ (by decide +kernel),
    getOk _ _ (by decide +kernel), getOk _ _ (by decide +kernel), by decide +kernel⟩

/-! ## What `Readable` excludes -/

/-- Write an object and read it back with its own namespace, in lenient mode. -/
def writeRead (v : Val Cls Fix) : Except Err (Val Cls Fix) :=
  match v with
  | .obj c ns nss _ => match ser fastkml ⟨none, .normal⟩ v with
    | .ok e => fromElement fastkml false c (some ns) nss e
    | .error x => .error x
  | _ => .error .illTyped

/-- A day in UTC. -/
def sampleWhen : KmlDateTime := ⟨.date ⟨2020, 5, 17⟩, .date⟩

/-- A track whose first row has no angle. -/
def raggedTrack : Val Cls Fix := newObj .Track [(s% "track_items", .items [
  ⟨some sampleWhen, [fx 1, fx 2], none⟩, ⟨some sampleWhen, [fx 3, fx 4], some (fx 5, fx 6, fx 7)⟩])]

/-- **C02, excluded case.** A row of a track without angle makes the angles move to
other rows: the angle of the second row is read as that of the first. -/
theorem C02_track_angles : writeRead raggedTrack = .ok (newObj .Track [(s% "track_items", .items [
    ⟨some sampleWhen, [fx 1, fx 2], some (fx 5, fx 6, fx 7)⟩,
    ⟨some sampleWhen, [fx 3, fx 4], some (fx 0, fx 0, fx 0)⟩])]) := by decide +kernel

/-- **C02, excluded case.** A row without a time before one with a time makes the times
move to other rows: the first row gets the time of the second. -/
theorem C02_track_times : writeRead (newObj .Track [(s% "track_items", .items [
      ⟨none, [fx 1, fx 2], some (fx 5, fx 6, fx 7)⟩, ⟨some sampleWhen, [fx 3, fx 4], some (fx 5, fx 6, fx 7)⟩])]) =
    .ok (newObj .Track [(s% "track_items", .items [
      ⟨some sampleWhen, [fx 1, fx 2], some (fx 5, fx 6, fx 7)⟩, ⟨none, [fx 3, fx 4], some (fx 5, fx 6, fx 7)⟩])]) := by
  decide +kernel

/-- **C02, excluded case.** The rows of a track are lost if none has a time. -/
theorem C02_track_no_times : writeRead (newObj .Track [(s% "track_items", .items [
      ⟨none, [fx 1, fx 2], some (fx 5, fx 6, fx 7)⟩, ⟨none, [fx 3, fx 4], some (fx 5, fx 6, fx 7)⟩])]) =
    .ok (newObj .Track []) := by decide +kernel

/-- A track with a time in the first of two rows. -/
def timedTrack : Val Cls Fix := newObj .Track [(s% "track_items", .items [
  ⟨some sampleWhen, [fx 1, fx 2], some (fx 5, fx 6, fx 7)⟩, ⟨none, [fx 3, fx 4], some (fx 0, fx 0, fx 0)⟩])]

/-- C02_readable: such a track meets the hypotheses, and comes back. -/
example : Everywhere (fun c ns nss attrs => Complete fastkml c ns nss attrs) timedTrack ∧
    writeRead timedTrack = .ok timedTrack := by
  refine ⟨everywhere_of (q := fun c ns nss attrs => decide (Val.obj c ns nss attrs = timedTrack)) (fun c ns nss attrs h => ?_)
    (by decide +kernel), by decide +kernel⟩
  have h := of_decide_eq_true h
  have hr : rows attrs = [⟨some sampleWhen, [fx 1, fx 2], some (fx 5, fx 6, fx 7)⟩,
      ⟨none, [fx 3, fx 4], some (fx 0, fx 0, fx 0)⟩] := by
    have : ∀ v : Val Cls Fix, v = timedTrack → (match v with | .obj _ _ _ attrs => rows attrs | _ => []) =
        [⟨some sampleWhen, [fx 1, fx 2], some (fx 5, fx 6, fx 7)⟩, ⟨none, [fx 3, fx 4], some (fx 0, fx 0, fx 0)⟩] := by
      rintro _ rfl
      decide +kernel
    exact this _ h
  have hc : c = .Track ∧ ns ≠ nsGet nss (s% "kml") := by
    have : ∀ v : Val Cls Fix, v = timedTrack → (match v with
        | .obj c ns nss _ => decide (c = .Track ∧ ns ≠ nsGet nss (s% "kml")) | _ => false) = true := by
      rintro _ rfl
      decide +kernel
    exact of_decide_eq_true (this _ h)
  obtain ⟨rfl, hns⟩ := hc
  refine ⟨fun it hit hg => ?_, fun _ r hm => ?_, fun _ => ?_, fun _ _ => hns, fun hsp => ?_⟩
  · have : ∀ it ∈ fastkml.itemsOf .Track, it.get ≠ .subDt := by decide +kernel
    exact absurd hg (this it hit)
  · rw [hr] at hm
    rcases List.mem_cons.mp hm with rfl | hm
    · refine ⟨?_, rfl, by decide +kernel⟩
      rintro _ ⟨rfl⟩
      exact ⟨⟨.date ⟨2020, 5, 17⟩, some .date, show Date.Valid ⟨2020, 5, 17⟩ by decide, rfl⟩, (by rintro (h | h) <;> cases h),
        fun d t h => by cases h⟩
    · cases List.mem_singleton.mp hm
      exact ⟨fun k h => (by cases h), rfl, by decide +kernel⟩
  · rw [hr]
    exact Or.inr ⟨[_], [_], rfl, by simp, by simp, by simp⟩
  · exact absurd hsp (by decide +kernel)

/-- A folder with a feature that has no namespace. -/
def mixedFolder : Val Cls Fix := newObj .Folder [(s% "features", .list [
  (match init fastkml .Folder (some []) [] [] with | .ok v => v | .error _ => .none)])]

/-- **C02, excluded case.** List members that are not in the namespace of their
class are lost. -/
theorem C02_foreign_member : writeRead mixedFolder = .ok (newObj .Folder []) ∧ mixedFolder ≠ newObj .Folder [] := by
  decide +kernel

end Verif
