import Verif.Spec.Rename
import Verif.Lemmas.RenameWrite
import Verif.Props.Namespaces

/-!
# C58, C59: the same document in other namespaces, and without namespace
-/

set_option linter.unusedSectionVars false
set_option linter.unusedSimpArgs false

namespace Verif

open Spec

variable {F : Type} [PyExt F]

/-! ## C58 -/

/-- **C58, reading.** If all namespaces of a document and of the arguments are replaced
by others, different ones by different ones, then reading gives the same object with the
namespaces replaced, or the same exception. -/
theorem C58_read {f : Str → Str} (hf : Renaming f) {nss : NsMap} (hN : NsOk nss) (hm : mergeNs nss = nss)
    (e : Xml) (strict : Bool) (c : Cls) (ns : Str) :
    fromElement (F := F) fastkml strict c (some (f ns)) (renMap f nss) (renXml f e) =
      renResult f (fromElement fastkml strict c (some ns) nss e) := by
  unfold fromElement
  simp only [Option.getD_some]
  rw [show mergeNs nss = nss from hm, show mergeNs (renMap f nss) = renMap f nss from merged_ren f hm]
  exact parse_ren hf hN hm e strict c ns

/-- **C58, writing.** An object with other namespaces is written like the object with the
namespaces of all elements replaced, or raises the same exception. -/
theorem C58_write {f : Str → Str} (hf : Renaming f) (o : Opts) (v : Val Cls F) (hv : Everywhere (Named fastkml) v) :
    ser fastkml o (renVal f v) = (ser fastkml o v).map (renXml f) := by
  refine ser_ren (renames_renXml f) o v fun c ns nss attrs hin => ?_
  have K := hv c ns nss attrs hin
  exact ⟨K.form, K.ok, fun i _ => nsGet_ren hf.none nss i, fun h => ⟨K.kml h, renaming_ne hf K.form (K.kml h)⟩⟩

/-- **C58.** The geometry and the truth value do not depend on the namespaces. -/
theorem C58_content (f : Str → Str) (v : Val Cls F) :
    geometry fastkml (renVal f v) = geometry fastkml v ∧ truthy fastkml (renVal f v) = truthy fastkml v :=
  ⟨by unfold geometry; rw [info_ren], truthy_ren f v⟩

theorem dupdate_first {k a b : Str} {X M : NsMap} (h : k ∈ M.map Prod.fst) :
    dupdate ((k, a) :: X) M = dupdate ((k, b) :: X) M := by
  induction M generalizing X with
  | nil => simp at h
  | cons p M ih =>
    obtain ⟨j, v⟩ := p
    simp only [dupdate, List.foldl_cons] at ih ⊢
    by_cases hj : j = k
    · subst hj; simp only [dset, if_true]
    · have h' : k ∈ M.map Prod.fst := by
        simp only [List.map_cons, List.mem_cons] at h
        exact h.resolve_left fun hh => hj hh.symm
      have hj' : ¬ k = j := fun hh => hj hh.symm
      simp only [dset, hj, hj', if_false]
      exact ih h'

theorem dset_renMap (f : Str → Str) (k v : Str) (M : NsMap) : dset k (f v) (renMap f M) = renMap f (dset k v M) := by
  induction M with
  | nil => rfl
  | cons p M ih =>
    obtain ⟨j, w⟩ := p
    simp only [renMap] at ih
    simp only [renMap, List.map_cons, dset]
    split
    · rfl
    · simp only [List.map_cons, ih]

theorem dupdate_renMap (f : Str → Str) (D M : NsMap) : dupdate (renMap f D) (renMap f M) = renMap f (dupdate D M) := by
  induction M generalizing D with
  | nil => rfl
  | cons p M ih =>
    obtain ⟨j, w⟩ := p
    simp only [dupdate, renMap, List.map_cons, List.foldl_cons] at ih ⊢
    have := dset_renMap f j w D
    simp only [renMap] at this
    rw [this]
    exact ih _

/-- The standard namespaces. -/
def stdNs (id : Str) : Str := nsGet defaultNameSpaces id

theorem mergeNs_renMap {f : Str → Str} (ha : f (stdNs (s% "atom")) = stdNs (s% "atom"))
    (hg : f (stdNs (s% "gx")) = stdNs (s% "gx")) {M : NsMap}
    (hk : s% "kml" ∉ M.map Prod.fst → f (stdNs (s% "kml")) = stdNs (s% "kml")) :
    mergeNs (renMap f M) = renMap f (mergeNs M) := by
  have h0 : defaultNameSpaces = [(s% "kml", stdNs (s% "kml")), (s% "atom", stdNs (s% "atom")), (s% "gx", stdNs (s% "gx"))] := by
    decide +kernel
  have h1 : renMap f defaultNameSpaces =
      [(s% "kml", f (stdNs (s% "kml"))), (s% "atom", stdNs (s% "atom")), (s% "gx", stdNs (s% "gx"))] := by
    rw [h0]; simp only [renMap, List.map_cons, List.map_nil, ha, hg]
  unfold mergeNs
  rw [← dupdate_renMap, h1, h0]
  by_cases h : s% "kml" ∈ M.map Prod.fst
  · exact dupdate_first (by rw [keys_renMap]; exact h)
  · rw [hk h]

theorem detectNs_ren {f : Str → Str} (hf : Renaming f) {n : Str} (hn : NsForm n) {root : Xml} (hr : root.tag = n ++ s% "kml") :
    detectNs none root = n ∧ detectNs none (renXml f root) = f n := by
  have key : ∀ (m : Str) (r : Xml), r.tag = m ++ s% "kml" → detectNs none r = m := by
    intro m r h
    have hl : (m ++ s% "kml").length - 3 = m.length := by simp
    simp only [detectNs, h, hl, List.take_left']
    have : endsWith (s% "kml") (m ++ s% "kml") = true := by
      simp [endsWith]
    simp only [this, if_true, List.take_left]
  refine ⟨key n root hr, key (f n) (renXml f root) ?_⟩
  rw [renXml_tag, hr, renTag_tag hn (by decide)]

/-- **C58, documents.** `KML.parse` of a document in other namespaces: the namespace of
the `kml` root element is used for the KML elements, whatever it is.  The namespaces of
Atom and of the extensions of Google are the standard ones, unless given. -/
theorem C58_kml {f : Str → Str} (hf : Renaming f) (ha : f (stdNs (s% "atom")) = stdNs (s% "atom"))
    (hg : f (stdNs (s% "gx")) = stdNs (s% "gx")) {n : Str} (hn : NsForm n) (h0 : n ≠ []) {root : Xml}
    (hr : root.tag = n ++ s% "kml") (nss : Option NsMap) (hN : NsOk (nss.getD [])) (strict : Bool) :
    parseRoot (F := F) none (nss.map (renMap f)) strict (renXml f root) = renResult f (parseRoot none nss strict root) := by
  obtain ⟨h1, h2⟩ := detectNs_ren hf hn hr
  unfold parseRoot
  simp only [h1, h2, parseNss, ne_eq, h0, renaming_ne hf hn h0, not_false_eq_true, if_true]
  have hd : (nss.map (renMap f)).getD [] = renMap f (nss.getD []) := by cases nss <;> rfl
  have hmem : s% "kml" ∈ (dset (s% "kml") n (nss.getD [])).map Prod.fst := by
    rw [keys_dset]; split <;> simp_all
  rw [hd, dset_renMap, mergeNs_renMap ha hg (fun h => absurd hmem h)]
  refine parse_ren hf (nsOk_merge ?_) (mergeNs_idem _) root strict .KML n
  intro p hp
  rcases mem_dset hp with rfl | hp
  · exact hn
  · exact hN p hp

/-- Exchanging two namespaces is a renaming. -/
theorem exchange_renaming {a b : Str} (ha : NsForm a) (hb : NsForm b) (ha0 : a ≠ []) (hb0 : b ≠ []) :
    Renaming (exchange a b) where
  none := by simp [exchange, Ne.symm ha0, Ne.symm hb0]
  form n hn := by
    unfold exchange
    split
    · exact hb
    · split
      · exact ha
      · exact hn
  inj m n _ _ h := by
    unfold exchange at h
    by_cases h1 : m = a <;> by_cases h2 : n = a <;> by_cases h3 : m = b <;> by_cases h4 : n = b <;>
      simp_all
  
/-- **C58, versions.** A document is read alike in every KML namespace `b`: the result of
`KML.parse` differs in the namespaces only. -/
theorem C58_version {a b : Str} (ha : NsForm a) (hb : NsForm b) (ha0 : a ≠ []) (hb0 : b ≠ [])
    (hs : ∀ s, s = stdNs (s% "atom") ∨ s = stdNs (s% "gx") → a ≠ s ∧ b ≠ s) {root : Xml}
    (hr : root.tag = a ++ s% "kml") (strict : Bool) :
    parseRoot (F := F) none none strict (renXml (exchange a b) root) =
      renResult (exchange a b) (parseRoot none none strict root) := by
  have hst : ∀ s, s = stdNs (s% "atom") ∨ s = stdNs (s% "gx") → exchange a b s = s := by
    intro s h
    simp only [exchange, Ne.symm (hs s h).1, Ne.symm (hs s h).2, if_false]
  exact C58_kml (exchange_renaming ha hb ha0 hb0) (hst _ (Or.inl rfl)) (hst _ (Or.inr rfl)) ha ha0 hr none
    (by intro p hp; cases hp) strict

/-- The namespace of KML 2.1. -/
def kml21 : Str := s% "{http://earth.google.com/kml/2.1}"

/-- A document of KML 2.2 with an element of Atom and one of the extensions of Google. -/
def doc22 : Xml := .mk (stdNs (s% "kml") ++ s% "kml") [] none [
  .mk (stdNs (s% "kml") ++ s% "Placemark") [(s% "id", s% "p")] none [
    .leaf (stdNs (s% "kml") ++ s% "name") (s% "here"),
    .mk (stdNs (s% "atom") ++ s% "author") [] none [.leaf (stdNs (s% "atom") ++ s% "name") (s% "me")],
    .mk (stdNs (s% "kml") ++ s% "Point") [] none [
      .leaf (stdNs (s% "gx") ++ s% "altitudeMode") (s% "clampToSeaFloor"),
      .leaf (stdNs (s% "kml") ++ s% "coordinates") (s% "1,2")]]]

/-- The document meets the hypotheses; in the namespace of KML 2.1 its elements are other
ones, those of Atom and of the extensions are not, and it is read. -/
example : (kml21 ≠ [] ∧ ∀ s, s = stdNs (s% "atom") ∨ s = stdNs (s% "gx") → stdNs (s% "kml") ≠ s ∧ kml21 ≠ s) ∧
    doc22.tag = stdNs (s% "kml") ++ s% "kml" := by
  refine ⟨⟨by decide, ?_⟩, rfl⟩
  rintro s (rfl | rfl) <;> decide +kernel

example : (renXml (exchange (stdNs (s% "kml")) kml21) doc22).kids.map Xml.tag = [kml21 ++ s% "Placemark"] ∧
    (renXml (exchange (stdNs (s% "kml")) kml21) doc22).kids.flatMap (fun k => k.kids.map Xml.tag) =
      [kml21 ++ s% "name", stdNs (s% "atom") ++ s% "author", kml21 ++ s% "Point"] := by decide +kernel

example : (match parseRoot (F := Fix) none none true (renXml (exchange (stdNs (s% "kml")) kml21) doc22) with
    | .ok (.obj c n _ as) => decide (c = .KML) && decide (n = kml21) && (match attr (s% "features") as with
      | .list [.obj d m _ bs] => decide (d = .Placemark) && decide (m = kml21) &&
        decide (attr (s% "name") bs = .str (s% "here"))
      | _ => false)
    | _ => false) = true := by decide +kernel

theorem nsForm_of {n : Str} (h : (n.isEmpty || decide (n.getLast? = some '}')) = true) : NsForm n := by
  simp only [Bool.or_eq_true, List.isEmpty_iff, decide_eq_true_eq] at h
  rcases h with h | h
  · exact Or.inl h
  · exact Or.inr (List.getLast?_eq_some_iff.mp h)

/-- `Named`, computed. -/
def namedB (c : Cls) (ns : Str) (nss : NsMap) (_ : List (Str × Val Cls F)) : Bool :=
  (ns.isEmpty || decide (ns.getLast? = some '}')) && nss.all (fun p => p.2.isEmpty || decide (p.2.getLast? = some '}')) &&
    (!decide ((fastkml.info c).special = .kml) || !ns.isEmpty)

theorem namedB_sound {c : Cls} {ns : Str} {nss : NsMap} {attrs : List (Str × Val Cls F)}
    (h : namedB c ns nss attrs = true) : Named fastkml c ns nss attrs := by
  simp only [namedB, Bool.and_eq_true, List.all_eq_true] at h
  refine ⟨nsForm_of h.1.1, fun p hp => nsForm_of (h.1.2 p hp), fun hk => ?_⟩
  simpa [hk] using h.2

/-- The sample document meets the hypothesis of `C58_write`, and changes. -/
example : Everywhere (Named fastkml) sampleDoc := everywhere_of (q := namedB) (fun _ _ _ _ h => namedB_sound h) (by decide +kernel)

example : renVal (exchange (stdNs (s% "kml")) kml21) sampleDoc ≠ sampleDoc := by decide +kernel

/-! ## C59 -/

theorem nsGet_putInto {d : Str} {nss : NsMap} {i : Str} (h : (dget i nss).isSome = true) :
    nsGet (renMap (putInto d) nss) i = putInto d (nsGet nss i) := by
  unfold nsGet
  rw [dget_renMap]
  cases hd : dget i nss with
  | none => rw [hd] at h; cases h
  | some n => rfl

/-- **C59, writing.** A `KML` object without namespace is written with `xmlns`.  An XML
parser puts its elements without namespace into the namespace of KML 2.2: it gets exactly
what is written for the same object in that namespace. -/
theorem C59_write (o : Opts) (nss : NsMap) (attrs : List (Str × Val Cls F))
    (h : ∀ a v, (a, v) ∈ attrs → Everywhere (PartOf fastkml) v) :
    (ser fastkml o (.obj .KML [] nss attrs)).map (resolve []) =
      ser fastkml o (renVal (putInto (stdNs (s% "kml"))) (.obj .KML [] nss attrs)) := by
  have hmov : ∀ v : Val Cls F, Everywhere (PartOf fastkml) v → ser fastkml o (renVal (putInto (stdNs (s% "kml"))) v) =
      (ser fastkml o v).map (resolve (stdNs (s% "kml"))) := by
    intro v hv
    refine ser_ren (renames_resolve _) o v fun c ns nss attrs hin => ?_
    have K := hv c ns nss attrs hin
    refine ⟨K.form, K.ok, ?_, fun hk => absurd hk K.part⟩
    rintro i (rfl | rfl)
    · exact nsGet_putInto K.kml
    · exact nsGet_putInto K.gx
  have hg := getattr_ren (g := putInto (stdNs (s% "kml"))) (R := resolve (stdNs (s% "kml"))) o
    (fastkml.info .KML).special (attrs := attrs) (fun a v hm => hmov v (h a v hm))
    (fun a l hm v hv => hmov v (everywhere_member (h a (Val.list l) hm) hv)) (s% "features")
  rw [renVal_obj, ser_obj, ser_obj, ← renAttrs_eq]
  have hk : (fastkml.info .KML).special = .kml := rfl
  have hd : putInto (stdNs (s% "kml")) [] = stdNs (s% "kml") := rfl
  have hd0 : stdNs (s% "kml") ≠ [] := by decide
  have ht : (fastkml.info .KML).tag = s% "kml" := rfl
  simp only [serStep, hk, if_true, hd, hd0, if_false, Xml.new, hg, ht]
  rw [hk] at hg
  rw [hg]
  symm
  exact ser_features_ren (n := []) (as := [(s% "xmlns", kmlUri)]) (as' := []) (fun ks => resolve_root ks)

theorem kindOk_ren (P : Pt F → Bool) (f : Str → Str) (it : Item Cls) (v : Val Cls F) :
    kindOk P it (renVal f v) = kindOk P it v := by
  unfold kindOk
  cases it.get <;> simp only <;> cases v <;> simp only [renVal]
  all_goals first
    | rfl
    | (simp only [isInst]; done)
    | (rename_i l
       rw [renList_eq, List.all_map]
       congr 1
       funext w
       cases w <;> simp only [Function.comp, renVal, isInst])

theorem typed_ren (P : Pt F → Bool) (f : Str → Str) (v : Val Cls F) :
    typed fastkml P v = true → typed fastkml P (renVal f v) = true := by
  induction v using Val.objInd with
  | hother v hv => intro _; cases v <;> first | exact absurd rfl (hv _ _ _ _) | simp [renVal, typed]
  | hobj c ns nss attrs ih1 ih2 =>
    intro h
    obtain ⟨h1, h2, h3, h4⟩ := typed_obj.mp h
    rw [renVal_obj]
    refine typed_obj.mpr ⟨?_, ?_, ?_, ?_⟩
    · intro it hit
      rw [attrOf_ren, kindOk_ren]
      exact h1 it hit
    · intro hs
      have := h2 hs
      simp only [trackOk, attr_eq, attrOf_ren] at this ⊢
      cases hv : attrOf (s% "track_items") attrs <;> simp only [hv, renVal] at this ⊢ <;> exact this
    · intro a v hm
      obtain ⟨p, hp, he⟩ := List.mem_map.mp hm
      cases he
      exact ih1 _ _ hp (h3 _ _ hp)
    · intro a l hm w hw
      obtain ⟨⟨b, u⟩, hp, he⟩ := List.mem_map.mp hm
      simp only [Prod.mk.injEq] at he
      obtain ⟨_, he⟩ := he
      cases u <;> simp only [renVal, reduceCtorEq, Val.list.injEq] at he
      rename_i l'
      rw [renList_eq] at he
      subst he
      obtain ⟨u, hu, rfl⟩ := List.mem_map.mp hw
      exact ih2 _ _ hp u hu (h4 _ _ hp u hu)

section
variable [LawfulExt F]

/-- **C59, reading back.** What an XML parser makes of the output for a `KML` object without
namespace is read as the same object in the namespace of KML 2.2, up to what every cycle of
writing and reading changes (`Spec.cycle`, see C02). -/
theorem C59_cycle {o : Opts} {nss : NsMap} {attrs : List (Str × Val Cls F)}
    (h : ∀ a v, (a, v) ∈ attrs → Everywhere (PartOf fastkml) v)
    (ht : typed fastkml dim23 (.obj .KML [] nss attrs) = true) {M : NsMap} (hM : NsOk M)
    (hr : Everywhere (Readable fastkml o (mergeNs M)) (renVal (putInto (stdNs (s% "kml"))) (.obj .KML [] nss attrs)))
    (strict : Bool) :
    ∃ e, ser fastkml o (.obj .KML [] nss attrs) = .ok e ∧
      fromElement fastkml strict .KML (some (stdNs (s% "kml"))) M (resolve [] e) =
        .ok (cycle fastkml o (mergeNs M) (renVal (putInto (stdNs (s% "kml"))) (.obj .KML [] nss attrs))) := by
  have hw := C59_write o nss attrs h
  obtain ⟨e, he⟩ := C54_succeeds ht o
  rw [renVal_obj] at hr ⊢
  have ht' : typed fastkml dim23 (.obj .KML (putInto (stdNs (s% "kml")) []) (renMap (putInto (stdNs (s% "kml"))) nss)
      (attrs.map fun p => (p.1, renVal (putInto (stdNs (s% "kml"))) p.2))) = true := by
    rw [← renVal_obj]; exact typed_ren _ _ _ ht
  obtain ⟨e', he', hc⟩ := C02_cycle ht' hM hr strict
  rw [he, renVal_obj, he'] at hw
  refine ⟨e, he, ?_⟩
  have : resolve [] e = e' := by simpa [Except.map] using hw
  rw [this]
  exact hc

/-- **C59.** A canonical document without namespaces is written, parsed and read by
`KML.parse` as the same document in the namespace of KML 2.2. -/
theorem C59_roundtrip {nss : NsMap} {attrs : List (Str × Val Cls F)}
    (h : ∀ a v, (a, v) ∈ attrs → Everywhere (PartOf fastkml) v)
    (ht : typed fastkml dim23 (.obj .KML [] nss attrs) = true)
    (hh : Everywhere (fun c ns nss _ => Home fastkml (mergeNs []) c ns nss)
      (renVal (putInto (stdNs (s% "kml"))) (.obj .KML [] nss attrs)))
    (hcp : Everywhere (fun c ns nss attrs => Complete fastkml c ns nss attrs)
      (renVal (putInto (stdNs (s% "kml"))) (.obj .KML [] nss attrs)))
    (hc : AllCanonical fastkml (mergeNs []) (renVal (putInto (stdNs (s% "kml"))) (.obj .KML [] nss attrs)))
    (strict : Bool) :
    ∃ e, ser fastkml ⟨none, .normal⟩ (.obj .KML [] nss attrs) = .ok e ∧
      parseRoot none none strict (resolve [] e) =
        .ok (renVal (putInto (stdNs (s% "kml"))) (.obj .KML [] nss attrs)) := by
  have hw := C59_write ⟨none, .normal⟩ nss attrs h
  obtain ⟨e, he⟩ := C54_succeeds ht ⟨none, .normal⟩
  have ht' : typed fastkml dim23 (renVal (putInto (stdNs (s% "kml"))) (.obj .KML [] nss attrs)) = true := by
    exact typed_ren _ _ _ ht
  rw [renVal_obj] at hh hcp hc ht' ⊢
  obtain ⟨e', he', hr⟩ := C01_default ht' (M := []) (by intro p hp; cases hp) (by decide) (by decide) hh hcp hc strict
  rw [he, renVal_obj, he'] at hw
  refine ⟨e, he, ?_⟩
  have : resolve [] e = e' := by simpa [Except.map] using hw
  rw [this]
  have htag : e'.tag = stdNs (s% "kml") ++ s% "kml" := ser_tag fastkml_writeOk ht' he'
  have hd := (detectNs_ren (f := id) ⟨rfl, fun _ h => h, fun _ _ _ _ h => h⟩ (n := stdNs (s% "kml"))
    (nsForm_of (by decide)) htag).1
  unfold fromElement at hr
  unfold parseRoot
  rw [hd]
  have hm : mergeNs (parseNss (stdNs (s% "kml")) ((none : Option NsMap).getD [])) = mergeNs [] := by decide +kernel
  simp only [hm]
  exact hr

end

/-- `cls(ns="", **kw)`. -/
def newBare (c : Cls) (kw : List (Str × Val Cls Fix)) : Val Cls Fix :=
  match init fastkml c (some []) [] kw with
  | .ok v => v
  | .error _ => .none

/-- A document without namespaces, with an element of the extensions of Google. -/
def bareDoc : Val Cls Fix := newBare .Document [
  (s% "name", .str (s% "n")),
  (s% "features", .list [newBare .Placemark [
    (s% "id", .str (s% "p")),
    (s% "kml_geometry", newBare .Point [
      (s% "altitude_mode", .enum .altitudeMode (s% "clampToSeaFloor")),
      (s% "kml_coordinates", newBare .Coordinates [(s% "coords", .coords [[fx 1, fx 2]])])])]])]

/-- The attributes of a `KML` object without namespace with that document. -/
def bareAttrs : List (Str × Val Cls Fix) := match newBare .KML [(s% "features", .list [bareDoc])] with
  | .obj _ _ _ as => as
  | _ => []

/-- `PartOf`, computed. -/
def partB (c : Cls) (ns : Str) (nss : NsMap) (_ : List (Str × Val Cls F)) : Bool :=
  (ns.isEmpty || decide (ns.getLast? = some '}')) && nss.all (fun p => p.2.isEmpty || decide (p.2.getLast? = some '}')) &&
    (dget (s% "kml") nss).isSome && (dget (s% "gx") nss).isSome && !decide ((fastkml.info c).special = .kml)

theorem partB_sound {c : Cls} {ns : Str} {nss : NsMap} {attrs : List (Str × Val Cls F)}
    (h : partB c ns nss attrs = true) : PartOf fastkml c ns nss attrs := by
  simp only [partB, Bool.and_eq_true, List.all_eq_true, Bool.not_eq_true', decide_eq_false_iff_not] at h
  exact ⟨nsForm_of h.1.1.1.1, fun p hp => nsForm_of (h.1.1.1.2 p hp), h.1.1.2, h.1.2, h.2⟩

/-- The document meets the hypotheses. -/
example : newBare .KML [(s% "features", .list [bareDoc])] = .obj .KML [] N0 bareAttrs ∧
    (∀ a v, (a, v) ∈ bareAttrs → Everywhere (PartOf fastkml) v) ∧
    typed fastkml dim23 (.obj .KML [] N0 bareAttrs) = true ∧
    Everywhere (fun c ns nss _ => Home fastkml (mergeNs []) c ns nss)
      (renVal (putInto (stdNs (s% "kml"))) (.obj .KML [] N0 bareAttrs)) ∧
    Everywhere (fun c ns nss attrs => Complete fastkml c ns nss attrs)
      (renVal (putInto (stdNs (s% "kml"))) (.obj .KML [] N0 bareAttrs)) ∧
    AllCanonical fastkml (mergeNs []) (renVal (putInto (stdNs (s% "kml"))) (.obj .KML [] N0 bareAttrs)) := by
  refine ⟨by decide +kernel, ?_, by decide +kernel, ?_, ?_, ?_⟩
  · have : ∀ p ∈ bareAttrs, everywhereB partB p.2 = true := by decide +kernel
    intro a v hm
    exact everywhere_of (q := partB) (fun _ _ _ _ h => partB_sound h) (this (a, v) hm)
  · exact everywhere_of (q := fun c ns nss _ => homeB fastkml N0 c ns nss) (fun _ _ _ _ h => of_decide_eq_true h)
      (by decide +kernel)
  · exact everywhere_of (q := fun c _ _ attrs => completeB fastkml c attrs) (fun _ _ _ _ h => completeB_sound h)
      (by decide +kernel)
  · exact everywhere_of (q := fun c _ nss attrs => canonicalB fastkml N0 c nss attrs)
      (fun _ _ _ _ h => canonicalB_sound h) (by decide +kernel)

/-- What is written for it: the elements have no namespace, `xmlns` is an attribute. -/
example : (match ser fastkml ⟨none, .normal⟩ (.obj .KML [] N0 bareAttrs) with
    | .ok e => decide (e.tag = s% "kml") && decide (e.attrs = [(s% "xmlns", kmlUri)]) &&
      decide (e.kids.map Xml.tag = [s% "Document"])
    | .error _ => false) = true := by decide +kernel

/-- **C59, excluded case.** The attribute only works in the text: the element itself, not
written and parsed, is read by `class_from_element` with the default namespaces as an empty
document, because its elements are in no namespace. -/
theorem C59_element : (match ser fastkml ⟨none, .normal⟩ (.obj .KML [] N0 bareAttrs) with
    | .ok e => fromElement (F := Fix) fastkml true .KML none [] e
    | .error x => .error x) = init fastkml .KML none [] [] ∧ attr (s% "features") bareAttrs ≠ .list [] := by
  decide +kernel

end Verif
