import Verif.XmlInst
import Verif.Props.Files
import Verif.Props.Rename
import Verif.Props.Reopen

/-!
# C67: through text

`to_string` and `from_string`, `KML.write` and `KML.parse`, with an XML library that reads
what it writes (`Spec.Faithful`).
-/

set_option linter.unusedSectionVars false
set_option linter.unusedSimpArgs false

namespace Verif

open Spec

variable {F : Type} [PyExt F] [LawfulExt F] [AsciiExt F]

/-- **C67.** A typed object whose texts XML can hold can be written as text, and the text is
read as the element that was written, up to indentation. -/
theorem C67_written {W : Etree} (hW : Faithful W) {v : Val Cls F} (ho : ∃ c ns nss attrs, v = .obj c ns nss attrs)
    (ht : typed fastkml dim23 v = true)
    (hl : Everywhere (Legal fastkml) v) (pp : Bool) (o : Opts) :
    ∃ e t e', ser fastkml o v = .ok e ∧ toString W pp o v = .ok t ∧ W.fromstring t = .ok e' ∧
      Loads W (.plain (utf8 t)) e' ∧ Indented (resolve [] e) e' := by
  obtain ⟨c, ns, nss, attrs, rfl⟩ := ho
  obtain ⟨e, he⟩ := C54_succeeds ht o
  have hwr := ser_writable fastkml_writeOk fastkml_printOk ht hl he
  obtain ⟨t, hp⟩ := hW.prints pp e hwr
  obtain ⟨e', hi, hf, hld⟩ := hW.reads pp e t hwr hp
  refine ⟨e, t, e', he, ?_, hf, hld, hi⟩
  unfold toString
  simp only [he]
  rcases hp with hp | ⟨h1, h2⟩
  · simp only [hp]
  · simp only [h1, h2]

theorem parse_indented {o : Opts} {v : Val Cls F} (ht : typed fastkml dim23 v = true) (hl : Everywhere (Legal fastkml) v)
    {c : Cls} {ns' : Str} {nss' : NsMap} {attrs : List (Str × Val Cls F)} (hv : v = .obj c ns' nss' attrs)
    {e e' : Xml} (h : ser fastkml o v = .ok e) (hi : Indented e e') (strict : Bool) (ns : Str) {nss : NsMap}
    (hns : NsOk nss) :
    parse (F := F) fastkml strict e' c ns nss = parse fastkml strict e c ns nss := by
  refine (C47_respaced strict c ns nss hns e e'
    (respaced_indented hi (ser_shape fastkml_writeOk fastkml_printOk ht hl h)) fun hc => ?_).symm
  subst hv hc
  rw [(written ht h).tag]
  exact localOf_append (legalNs_form (hl _ _ _ _ .self).ns) (by decide)

theorem fromString_eq {W : Etree} {t : Str} {e : Xml} (h : W.fromstring t = .ok e) {strict : Bool} {c : Cls}
    {ns : Option Str} {nss : NsMap} {v : Val Cls F} (hv : fromElement fastkml strict c ns nss e = .ok v) :
    fromString W strict c ns nss t = .ok v := by
  simp only [fromString, h, hv]

/-- The `KML` objects have a namespace. -/
def HasNs (c : Cls) (ns : Str) (_ : NsMap) (_ : List (Str × Val Cls F)) : Prop := c = .KML → ns ≠ []

theorem special_kml {c : Cls} (h : (fastkml.info c).special = .kml) : c = .KML := by
  have : ∀ c ∈ Cls.all, (fastkml.info c).special = .kml → c = .KML := by decide +kernel
  exact this c (Cls.mem_all c) h

theorem resolve_ser {o : Opts} {v : Val Cls F} (ht : typed fastkml dim23 v = true) (hn : Everywhere HasNs v) {e : Xml}
    (h : ser fastkml o v = .ok e) : resolve [] e = e := by
  refine resolve_plain e (ser_noXmlns fastkml_writeOk fastkml_printOk ht ?_ h)
  intro c ns nss attrs hin hk
  exact hn c ns nss attrs hin (special_kml hk)

/-- **C67, strings.** What `to_string` writes, with any verbosity, precision and indentation,
`from_string` reads, strictly or leniently, as the object that a cycle through elements gives
(`Spec.cycle`, see C02). -/
theorem C67_cycle {W : Etree} (hW : Faithful W) {c : Cls} {ns : Str} {nss : NsMap} {attrs : List (Str × Val Cls F)}
    (ht : typed fastkml dim23 (.obj c ns nss attrs) = true) (hl : Everywhere (Legal fastkml) (.obj c ns nss attrs))
    {M : NsMap} (hM : NsOk M) {o : Opts} (hr : Everywhere (Readable fastkml o (mergeNs M)) (.obj c ns nss attrs))
    (pp : Bool) :
    ∃ t, toString W pp o (.obj c ns nss attrs) = .ok t ∧
      ∀ strict, fromString W strict c (some ns) M t = .ok (cycle fastkml o (mergeNs M) (.obj c ns nss attrs)) := by
  obtain ⟨e, t, e', he, htx, hf, _, hi⟩ := C67_written hW ⟨_, _, _, _, rfl⟩ ht hl pp o
  rw [resolve_ser ht (fun c ns nss attrs hin hc => (hr c ns nss attrs hin).kml (by rw [hc]; rfl)) he] at hi
  refine ⟨t, htx, fun strict => fromString_eq hf ?_⟩
  obtain ⟨e2, he2, h2⟩ := C02_cycle ht hM hr strict
  rw [he] at he2
  cases he2
  rw [← h2]
  exact parse_indented ht hl rfl he hi strict _ (nsOk_merge hM)

/-- **C67, strings.** A canonical object (`Spec.Canonical`, see C01) in the default namespaces
is the same after `to_string` and `from_string`. -/
theorem C67_roundtrip {W : Etree} (hW : Faithful W) {c : Cls} {ns : Str} {nss : NsMap} {attrs : List (Str × Val Cls F)}
    (ht : typed fastkml dim23 (.obj c ns nss attrs) = true) (hl : Everywhere (Legal fastkml) (.obj c ns nss attrs))
    {M : NsMap} (hM : NsOk M) (h0 : nsGet (mergeNs M) [] = []) (h1 : nsGet (mergeNs M) (s% "kml") ≠ [])
    (hh : Everywhere (fun c ns nss _ => Home fastkml (mergeNs M) c ns nss) (.obj c ns nss attrs))
    (hcp : Everywhere (fun c ns nss attrs => Complete fastkml c ns nss attrs) (.obj c ns nss attrs))
    (hc : AllCanonical fastkml (mergeNs M) (.obj c ns nss attrs)) (pp : Bool) :
    ∃ t, toString W pp ⟨none, .normal⟩ (.obj c ns nss attrs) = .ok t ∧
      ∀ strict, fromString W strict c none M t = .ok (.obj c ns nss attrs) := by
  obtain ⟨e, t, e', he, htx, hf, _, hi⟩ := C67_written hW ⟨_, _, _, _, rfl⟩ ht hl pp ⟨none, .normal⟩
  have hn : Everywhere HasNs (.obj c ns nss attrs) := by
    intro c' ns' nss' attrs' hin hk
    rw [(hh c' ns' nss' attrs' hin).2, hk]
    exact h1
  rw [resolve_ser ht hn he] at hi
  refine ⟨t, htx, fun strict => fromString_eq hf ?_⟩
  obtain ⟨e2, he2, h2⟩ := C01_default ht hM h0 h1 hh hcp hc strict
  rw [he] at he2
  cases he2
  rw [← h2]
  exact parse_indented ht hl rfl he hi strict _ (nsOk_merge hM)

/-! ## Files -/

theorem loadRoot_of {W : Etree} {fs : FS} {p : Str × Str} {f : File} {e e' : Xml} (hf : fs p = some f)
    (hl : Loads W f e') (hi : Indented e e') {strict : Bool} {v : Option Bool} (hv : Passes W strict v e) :
    loadRoot W fs p strict v = .ok e' := by
  rcases hl with h | ⟨h1, h2⟩
  · simp only [loadRoot, parseAndValidate, openFile, hf, h]
    rcases hv with rfl | ⟨rfl, rfl⟩ | hv
    · simp
    · simp
    · obtain ⟨r, hr⟩ := hv fs e' hi
      simp only [hr, ite_self]
  · simp only [loadRoot, parseAndValidate, openFile, hf, h1, h2]

/-- **C67, files.** A canonical document that `KML.write` writes to a file that is not a
`.kmz`, is what `KML.parse` reads from that file, unless the validation that was asked for
rejects it. -/
theorem C67_file {W : Etree} (hW : Faithful W) {ns : Str} {nss : NsMap} {attrs : List (Str × Val Cls F)}
    (ht : typed fastkml dim23 (.obj .KML ns nss attrs) = true) (hl : Everywhere (Legal fastkml) (.obj .KML ns nss attrs))
    (hh : Everywhere (fun c ns nss _ => Home fastkml (mergeNs []) c ns nss) (.obj .KML ns nss attrs))
    (hcp : Everywhere (fun c ns nss attrs => Complete fastkml c ns nss attrs) (.obj .KML ns nss attrs))
    (hc : AllCanonical fastkml (mergeNs []) (.obj .KML ns nss attrs)) (fs : FS) (p : Str × Str) (hk : ¬ KmzName p.2)
    (pp strict : Bool) (v : Option Bool)
    (hv : ∀ e, ser fastkml ⟨none, .normal⟩ (.obj .KML ns nss attrs) = .ok e → Passes W strict v e) :
    ∃ fs', kmlWrite W fs p pp ⟨none, .normal⟩ (.obj .KML ns nss attrs) = (fs', .ok ()) ∧
      (kmlParse W fs' p none none strict v).1 = .ok (.obj .KML ns nss attrs) := by
  obtain ⟨e, t, e', he, htx, _, hld, hi⟩ := C67_written hW ⟨_, _, _, _, rfl⟩ ht hl pp ⟨none, .normal⟩
  have hns : ns = stdNs (s% "kml") := by
    have := (hh .KML ns nss attrs .self).2
    rw [this]; decide +kernel
  have hn : Everywhere HasNs (.obj .KML ns nss attrs) := by
    intro c' ns' nss' attrs' hin hk
    rw [(hh c' ns' nss' attrs' hin).2, hk]
    decide
  rw [resolve_ser ht hn he] at hi
  obtain ⟨fs', h1, _, h2, _⟩ := C42_written W fs p pp ⟨none, .normal⟩ _ t htx
  refine ⟨fs', h1, ?_⟩
  have hroot := loadRoot_of (h2 hk) hld hi (hv e he)
  have htag : e'.tag = stdNs (s% "kml") ++ s% "kml" := by
    rw [indented_tag hi, (written ht he).tag, hns]; rfl
  have hd := (detectNs_ren (f := id) ⟨rfl, fun _ h => h, fun _ _ _ _ h => h⟩ (n := stdNs (s% "kml"))
    (nsForm_of (by decide)) htag).1
  have hm : mergeNs (parseNss (stdNs (s% "kml")) ((none : Option NsMap).getD [])) = mergeNs [] := by decide +kernel
  have hpr : parseRoot none none strict e' = .ok (.obj .KML ns nss attrs) := by
    obtain ⟨e2, he2, hr⟩ := C01_default ht (M := []) (by intro p hp; cases hp) (by decide) (by decide) hh hcp hc strict
    rw [he] at he2
    cases he2
    unfold fromElement at hr
    unfold parseRoot
    rw [hd]
    simp only [hm]
    rw [parse_indented ht hl rfl he hi strict _ (nsOk_merge (by intro p hp; cases hp))]
    exact hr
  simp only [kmlParse, hroot, hpr]

/-! ## Opening, saving and opening again -/

/-- **C67, strings.** What was read from a string, written and read again is the same object,
up to empty objects, which are not written (`Spec.prune`, see C60). -/
theorem C67_reopen {W : Etree} (hW : Faithful W) {strict : Bool} {t : Str} {e : Xml} (hf : W.fromstring t = .ok e) {c : Cls}
    {M : NsMap} (hM : NsOk M) (h0 : nsGet (mergeNs M) [] = []) (h1 : nsGet (mergeNs M) (s% "kml") ≠ [])
    (hs : Standard (mergeNs M) e) {v : Val Cls F} (h : fromString W strict c none M t = .ok v)
    (hl : Everywhere (fun c ns nss attrs => Lasting c ns nss attrs) v) (hg : Everywhere (Legal fastkml) v) (pp : Bool) :
    ∃ t', toString W pp ⟨none, .normal⟩ v = .ok t' ∧
      ∀ strict', fromString W strict' c none M t' = .ok (prune v) := by
  have h' : fromElement fastkml strict c none M e = .ok v := by
    simp only [fromString, hf] at h
    split at h
    · cases h
    · rename_i hv
      cases h
      exact hv
  obtain ⟨⟨attrs, hv⟩, hty, _, _, hread⟩ := opened (nsOk_merge hM) (mergeNs_idem M) h0 h1 hs h' hl
  obtain ⟨e1, t', e', he, htx, hf', _, hi⟩ := C67_written hW ⟨_, _, _, _, hv⟩ hty hg pp ⟨none, .normal⟩
  rw [resolve_ser hty (fun c ns nss attrs hin hc => (hread ⟨none, .normal⟩ c ns nss attrs hin).kml (by rw [hc]; rfl)) he]
    at hi
  obtain ⟨e2, he2, h3⟩ := C60_reopen hM h0 h1 hs h' hl
  rw [he] at he2
  cases he2
  refine ⟨t', htx, fun strict' => fromString_eq hf' ?_⟩
  rw [← h3 strict']
  exact parse_indented hty hg hv he hi strict' _ (nsOk_merge hM)

/-- **C67, files.** A file that was opened with `KML.parse`, saved with `KML.write` to a file
that is not a `.kmz` and opened again, gives the same object, up to empty objects, which are
not written. -/
theorem C67_reopen_file {W : Etree} (hW : Faithful W) {fs : FS} {p : Str × Str} {strict : Bool} {val : Option Bool}
    {root : Xml} (hload : loadRoot W fs p strict val = .ok root)
    {n : Str} (hn : NsForm n) (hn0 : n ≠ []) (hr : root.tag = n ++ s% "kml") {nss : Option NsMap}
    (hd : ((nss.getD []).map Prod.fst).Nodup) (hN : NsOk (nss.getD [])) (h0 : nsGet (mergeNs (nss.getD [])) [] = [])
    (hs : Standard (mergeNs (dset (s% "kml") n (nss.getD []))) root) {v : Val Cls F}
    (h : (kmlParse W fs p none nss strict val).1 = .ok v)
    (hl : Everywhere (fun c ns nss attrs => Lasting c ns nss attrs) v) (hg : Everywhere (Legal fastkml) v)
    (q : Str × Str) (hq : ¬ KmzName q.2) (pp : Bool) :
    ∃ fs', kmlWrite W fs q pp ⟨none, .normal⟩ v = (fs', .ok ()) ∧
      ∀ strict' val', (∀ e, ser fastkml ⟨none, .normal⟩ v = .ok e → Passes W strict' val' e) →
        (kmlParse W fs' q none nss strict' val').1 = .ok (prune v) := by
  have h' : parseRoot none nss strict root = .ok v := by
    simp only [kmlParse, hload] at h
    split at h
    · cases h
    · rename_i hv
      cases h
      exact hv
  obtain ⟨root', he, htag, hpr, _⟩ := C60_kml hn hn0 hr hd hN h0 hs h' hl
  obtain ⟨hM, hg0, hg1, hnk, hpp⟩ := parseRoot_parse (F := F) hn hn0 hd hN h0
  obtain ⟨⟨attrs, hv⟩, hty, _, _, hread⟩ := opened hM (mergeNs_idem _) hg0 hg1 hs ((hpp strict root hr).symm.trans h') hl
  obtain ⟨e1, t', e', he1, htx, _, hld, hi⟩ := C67_written hW ⟨_, _, _, _, hv⟩ hty hg pp ⟨none, .normal⟩
  rw [he] at he1
  cases he1
  rw [resolve_ser hty (fun c ns nss attrs hin hc => (hread ⟨none, .normal⟩ c ns nss attrs hin).kml (by rw [hc]; rfl)) he]
    at hi
  obtain ⟨fs', h1, _, h2, _⟩ := C42_written W fs q pp ⟨none, .normal⟩ _ t' htx
  refine ⟨fs', h1, fun strict' val' hval => ?_⟩
  have hroot := loadRoot_of (h2 hq) hld hi (hval _ he)
  have hpr' : parseRoot none nss strict' e' = .ok (prune v) := by
    rw [← hpr strict', hpp strict' e' (by rw [indented_tag hi, htag, hr]), hpp strict' root' (by rw [htag, hr])]
    exact parse_indented hty hg hv he hi strict' _ hM
  simp only [kmlParse, hroot, hpr']

/-! ## Without namespace -/

/-- The objects in a renamed object. -/
theorem inside_ren {f : Str → Str} {c : Cls} {ns : Str} {nss : NsMap} {as : List (Str × Val Cls F)} {v : Val Cls F}
    (h : Inside (.obj c ns nss as) (renVal f v)) :
    ∃ ns' nss' as', Inside (.obj c ns' nss' as') v ∧ ns = f ns' ∧ nss = renMap f nss' ∧
      as = as'.map fun p => (p.1, renVal f p.2) := by
  generalize hw : renVal f v = w at h
  induction h generalizing v with
  | self =>
    cases v <;> simp only [renVal, reduceCtorEq, Val.obj.injEq] at hw
    obtain ⟨rfl, rfl, rfl, rfl⟩ := hw
    exact ⟨_, _, _, .self, rfl, rfl, by rw [renAttrs_eq]⟩
  | attr hm _ ih =>
    cases v <;> simp only [renVal, reduceCtorEq, Val.obj.injEq] at hw
    obtain ⟨rfl, rfl, rfl, rfl⟩ := hw
    rw [renAttrs_eq] at hm
    obtain ⟨⟨b, u⟩, hu, he⟩ := List.mem_map.mp hm
    simp only [Prod.mk.injEq] at he
    obtain ⟨n', s', a', h1, h2⟩ := ih he.2
    exact ⟨n', s', a', .attr hu h1, h2⟩
  | member hm _ ih =>
    cases v <;> simp only [renVal, reduceCtorEq, Val.list.injEq] at hw
    subst hw
    rw [renList_eq] at hm
    obtain ⟨u, hu, he⟩ := List.mem_map.mp hm
    obtain ⟨n', s', a', h1, h2⟩ := ih he
    exact ⟨n', s', a', .member hu h1, h2⟩

theorem legal_ren {v : Val Cls F} (h : Everywhere (Legal fastkml) v) :
    Everywhere (Legal fastkml) (renVal (putInto (stdNs (s% "kml"))) v) := by
  have hput : ∀ n, LegalNs n → LegalNs (putInto (stdNs (s% "kml")) n) := by
    intro n hn
    unfold putInto
    split
    · exact Or.inr ⟨kmlUri, by decide, legalUri_kml⟩
    · exact hn
  intro c ns nss attrs hin
  obtain ⟨n', s', a', h1, rfl, rfl, rfl⟩ := inside_ren hin
  have K := h c n' s' a' h1
  have hstr : ∀ a s, attr a (a'.map fun p => (p.1, renVal (putInto (stdNs (s% "kml"))) p.2)) = .str s →
      attr a a' = .str s := by
    intro a s hs
    rw [attr_eq, attrOf_ren] at hs
    rw [attr_eq]
    cases hv : attrOf a a' <;> rw [hv] at hs <;> simp only [renVal, reduceCtorEq] at hs
    exact hs
  refine ⟨hput _ K.ns, ?_, fun it hit hp s hs => K.text it hit hp s (hstr _ _ hs),
    fun it hit hp s hs => K.value it hit hp s (hstr _ _ hs)⟩
  intro p hp
  obtain ⟨q, hq, rfl⟩ := List.mem_map.mp hp
  exact hput _ (K.nss q hq)

/-- **C67, without namespace.** A canonical document without namespaces that is written to a
file is read from it as the same document in the namespace of KML 2.2. -/
theorem C67_bare {W : Etree} (hW : Faithful W) {nss : NsMap} {attrs : List (Str × Val Cls F)}
    (h : ∀ a v, (a, v) ∈ attrs → Everywhere (PartOf fastkml) v)
    (ht : typed fastkml dim23 (.obj .KML [] nss attrs) = true) (hl : Everywhere (Legal fastkml) (.obj .KML [] nss attrs))
    (hh : Everywhere (fun c ns nss _ => Home fastkml (mergeNs []) c ns nss)
      (renVal (putInto (stdNs (s% "kml"))) (.obj .KML [] nss attrs)))
    (hcp : Everywhere (fun c ns nss attrs => Complete fastkml c ns nss attrs)
      (renVal (putInto (stdNs (s% "kml"))) (.obj .KML [] nss attrs)))
    (hc : AllCanonical fastkml (mergeNs []) (renVal (putInto (stdNs (s% "kml"))) (.obj .KML [] nss attrs)))
    (fs : FS) (p : Str × Str) (hk : ¬ KmzName p.2) (pp strict : Bool) (v : Option Bool)
    (hv : ∀ e, ser fastkml ⟨none, .normal⟩ (.obj .KML [] nss attrs) = .ok e → Passes W strict v (resolve [] e)) :
    ∃ fs', kmlWrite W fs p pp ⟨none, .normal⟩ (.obj .KML [] nss attrs) = (fs', .ok ()) ∧
      (kmlParse W fs' p none none strict v).1 =
        .ok (renVal (putInto (stdNs (s% "kml"))) (.obj .KML [] nss attrs)) := by
  obtain ⟨e, t, e', he, htx, _, hld, hi⟩ := C67_written hW ⟨_, _, _, _, rfl⟩ ht hl pp ⟨none, .normal⟩
  obtain ⟨e2, he2, hpr⟩ := C59_roundtrip h ht hh hcp hc strict
  rw [he] at he2
  cases he2
  obtain ⟨fs', h1, _, h2, _⟩ := C42_written W fs p pp ⟨none, .normal⟩ _ t htx
  refine ⟨fs', h1, ?_⟩
  have hroot := loadRoot_of (h2 hk) hld hi (hv e he)
  have hser : ser fastkml ⟨none, .normal⟩ (renVal (putInto (stdNs (s% "kml"))) (.obj .KML [] nss attrs)) =
      .ok (resolve [] e) := by
    rw [← C59_write ⟨none, .normal⟩ nss attrs h, he]; rfl
  have ht' := typed_ren dim23 (putInto (stdNs (s% "kml"))) _ ht
  have hpr' : parseRoot none none strict e' =
      .ok (renVal (putInto (stdNs (s% "kml"))) (.obj .KML [] nss attrs)) := by
    rw [← hpr]
    unfold parseRoot detectNs
    rw [indented_tag hi]
    refine parse_indented ht' (legal_ren hl) (renVal_obj _ _ _ _ _) hser hi strict _ (nsOk_merge ?_)
    have htag : (resolve [] e).tag = stdNs (s% "kml") ++ s% "kml" := by
      rw [renVal_obj] at ht' hser
      exact ser_tag fastkml_writeOk ht' hser
    rw [htag]
    intro q hq
    have : parseNss (stdNs (s% "kml")) ((none : Option NsMap).getD []) = [(s% "kml", stdNs (s% "kml"))] := by decide +kernel
    have hq : q ∈ [(s% "kml", stdNs (s% "kml"))] := by
      rw [← this]
      exact hq
    rw [List.mem_singleton] at hq
    subst hq
    exact nsForm_of (by decide)
  simp only [kmlParse, hroot, hpr']

/-! ## Cases

`Lib.xmlLib` is an XML library that reads what it writes (`Lib.xmlLib_faithful`). -/

instance : AsciiExt Fix where
  repr := by
    rintro ⟨_ | n⟩
    · exact (by decide : ∀ c ∈ s% "nan", 0x20 ≤ c.toNat ∧ c.toNat < 0x7F)
    · exact Fix.ascii_sgn_dec _ _ _
  fixed := by
    rintro p ⟨_ | n⟩
    · exact (by decide : ∀ c ∈ s% "nan", 0x20 ≤ c.toNat ∧ c.toNat < 0x7F)
    · exact Fix.ascii_sgn_dec _ _ _

/-- `LegalNs`, computed. -/
def legalNsB (n : Str) : Bool :=
  match n with
  | [] => true
  | c :: r => decide (c = '{') && decide (r.getLast? = some '}') && decide (LegalUri r.dropLast)

theorem legalNsB_sound {n : Str} (h : legalNsB n = true) : LegalNs n := by
  cases n with
  | nil => exact Or.inl rfl
  | cons c r =>
    simp only [legalNsB, Bool.and_eq_true, decide_eq_true_eq] at h
    obtain ⟨⟨rfl, h2⟩, h3⟩ := h
    refine Or.inr ⟨r.dropLast, ?_, h3⟩
    obtain ⟨hne, hg⟩ := List.getLast?_eq_some_iff.mp h2
    rw [hg, List.dropLast_concat, List.cons_append]

/-- The value is no text, or one that is legal. -/
def legalValB (attr? : Bool) : Val Cls F → Bool
  | .str s => if attr? then decide (LegalValue s) else decide (LegalText s)
  | _ => true

/-- `Legal`, computed. -/
def legalB (c : Cls) (ns : Str) (nss : NsMap) (attrs : List (Str × Val Cls F)) : Bool :=
  legalNsB ns && nss.all (fun p => legalNsB p.2) &&
    (fastkml.itemsOf c).all fun it => legalValB (decide (place it.get = .attr)) (attr it.attr attrs)

theorem legalB_sound {c : Cls} {ns : Str} {nss : NsMap} {attrs : List (Str × Val Cls F)}
    (h : legalB c ns nss attrs = true) : Legal fastkml c ns nss attrs := by
  simp only [legalB, Bool.and_eq_true, List.all_eq_true] at h
  refine ⟨legalNsB_sound h.1.1, fun p hp => legalNsB_sound (h.1.2 p hp), fun it hit hp s hs => ?_,
    fun it hit hp s hs => ?_⟩
  · have := h.2 it hit
    rw [hs] at this
    simpa [legalValB, hp] using this
  · have := h.2 it hit
    rw [hs] at this
    simpa [legalValB, hp] using this

theorem legal_of {v : Val Cls F} (h : everywhereB legalB v = true) : Everywhere (Legal fastkml) v :=
  everywhere_of (q := legalB) (fun _ _ _ _ h => legalB_sound h) h

/-- The document of C01, in a `KML` object; its name has the characters that are escaped, its
description a line feed. -/
def textKml : Val Cls Fix := newObj .KML [(s% "features", .list [sampleDoc, newObj .Folder [
  (s% "name", .str (s% "a < b & \"c\" > d ]]> ü")), (s% "description", .str (s% "one\ntwo"))]])]

/-- The attributes of `textKml`. -/
def textAttrs : List (Str × Val Cls Fix) := match textKml with
  | .obj _ _ _ as => as
  | _ => []

theorem textKml_obj : textKml = .obj .KML kmlNs N0 textAttrs := by decide +kernel

/-- The object meets the hypotheses of `C67_file` and `C67_roundtrip`; so it is written, and
read from the file. -/
theorem C67_textKml : typed fastkml dim23 (.obj .KML kmlNs N0 textAttrs) = true ∧
    Everywhere (Legal fastkml) (.obj .KML kmlNs N0 textAttrs) ∧
    Everywhere (fun c ns nss _ => Home fastkml (mergeNs []) c ns nss) (.obj .KML kmlNs N0 textAttrs) ∧
    Everywhere (fun c ns nss attrs => Complete fastkml c ns nss attrs) (.obj .KML kmlNs N0 textAttrs) ∧
    AllCanonical fastkml (mergeNs []) (.obj .KML kmlNs N0 textAttrs) := by
  refine ⟨by decide +kernel, legal_of (by decide +kernel), ?_, ?_, ?_⟩
  · exact everywhere_of (q := fun c ns nss _ => homeB fastkml N0 c ns nss) (fun _ _ _ _ h => of_decide_eq_true h)
      (by decide +kernel)
  · exact everywhere_of (q := fun c _ _ attrs => completeB fastkml c attrs) (fun _ _ _ _ h => completeB_sound h)
      (by decide +kernel)
  · exact everywhere_of (q := fun c _ nss attrs => canonicalB fastkml N0 c nss attrs)
      (fun _ _ _ _ h => canonicalB_sound h) (by decide +kernel)

example (fs : FS) (pp strict : Bool) : ∃ fs',
    kmlWrite Lib.xmlLib fs (s% "d", s% "doc.kml") pp ⟨none, .normal⟩ textKml = (fs', .ok ()) ∧
    (kmlParse Lib.xmlLib fs' (s% "d", s% "doc.kml") none none strict (some false)).1 = .ok textKml := by
  obtain ⟨h1, h2, h3, h4, h5⟩ := C67_textKml
  rw [textKml_obj]
  exact C67_file Lib.xmlLib_faithful h1 h2 h3 h4 h5 fs _ (fun hk => absurd ((C42_suffix _).mpr hk) (by decide)) pp strict _ fun e _ => Or.inl rfl

example (pp : Bool) : ∃ t, toString Lib.xmlLib pp ⟨none, .normal⟩ textKml = .ok t ∧
    ∀ strict, fromString Lib.xmlLib strict .KML none [] t = .ok textKml := by
  obtain ⟨h1, h2, h3, h4, h5⟩ := C67_textKml
  rw [textKml_obj]
  exact C67_roundtrip Lib.xmlLib_faithful h1 h2 (by intro p hp; cases hp) (by decide) (by decide) h3 h4 h5 pp

/-- The text, for a folder. -/
example : toString Lib.xmlLib true ⟨none, .normal⟩ (newObj .Folder [(s% "id", .str (s% "f")),
      (s% "name", .str (s% "a & b")), (s% "visibility", .bool true)]) =
    .ok (s% "<n:Folder xmlns:n=\"http://www.opengis.net/kml/2.2\" id=\"f\">\n<n:name xmlns:n=\"http://www.opengis.net/kml/2.2\">a &amp; b</n:name><n:visibility xmlns:n=\"http://www.opengis.net/kml/2.2\">1</n:visibility></n:Folder>") := by
  decide +kernel

/-- With another verbosity and precision: `C67_cycle`. -/
example (pp : Bool) (pr : Option Nat) (vb : Verbosity) : ∃ t,
    toString Lib.xmlLib pp ⟨pr, vb⟩ textKml = .ok t ∧
    ∀ strict, fromString Lib.xmlLib strict .KML (some kmlNs) [] t = .ok (cycle fastkml ⟨pr, vb⟩ (mergeNs []) textKml) := by
  obtain ⟨h1, h2, h3, h4, h5⟩ := C67_textKml
  rw [textKml_obj]
  refine C67_cycle Lib.xmlLib_faithful h1 h2 (by intro p hp; cases hp) ?_ pp
  intro c ns nss attrs hin
  exact readable_home (fastkml_homeOk c) (fastkml_writeOk c) ⟨pr, vb⟩ (objOk_everywhere fastkml_readOk _ h1 h5 ⟨_, _, _, _, rfl⟩ _ _ _ _ hin) (by decide)
    (fun hk => by rw [special_kml hk]; decide) (fun c' n' s' a' hin' => h3 _ _ _ _ (hin'.trans hin)) (h4 _ _ _ _ hin)

mutual
/-- `Writable`, computed. -/
def writableB : Xml → Bool
  | .mk t a x ks => legalNsB (nsPart t) && legalName (localName t) && decide ((a.map Prod.fst).Nodup) &&
      a.all (fun p => legalName p.1 && decide (LegalValue p.2) &&
        (decide (p.1 ≠ s% "xmlns") || (decide (LegalUri p.2) && decide (nsPart t = [])))) &&
      (match x with
        | none => true
        | some s => decide (s ≠ []) && decide (LegalText s) && ks.isEmpty) && writablesB ks
termination_by structural e => e
/-- For a list of elements. -/
def writablesB : List Xml → Bool
  | [] => true
  | k :: r => writableB k && writablesB r
termination_by structural l => l
end

theorem writablesB_mem : ∀ {l : List Xml}, writablesB l = true → ∀ k ∈ l, writableB k = true
  | [], _, _, hk => by cases hk
  | j :: l, h, k, hk => by
    simp only [writablesB, Bool.and_eq_true] at h
    rcases List.mem_cons.mp hk with rfl | hk
    · exact h.1
    · exact writablesB_mem h.2 k hk

theorem writableB_sound {e : Xml} (h : writableB e = true) : Writable e := by
  intro d hd
  induction hd with
  | @kid e k d hk _ ih =>
    cases e
    simp only [writableB, Bool.and_eq_true] at h
    exact ih (writablesB_mem h.2 _ hk)
  | refl e =>
    cases e with
    | mk t a x ks =>
      simp only [writableB, Bool.and_eq_true, decide_eq_true_eq, List.all_eq_true] at h
      obtain ⟨⟨⟨⟨⟨h1, h2⟩, h3⟩, h4⟩, h5⟩, _⟩ := h
      refine ⟨⟨_, _, (nsPart_append t).symm, legalNsB_sound h1, h2⟩, h3, fun p hp => (h4 p hp).1, fun u hu => ?_,
        fun s hs => ?_⟩
      · have := (h4 _ hu).2
        simpa [Xml.tag] using this
      · cases hs
        simp only [Bool.and_eq_true, decide_eq_true_eq, List.isEmpty_iff] at h5
        exact ⟨h5.1.1, h5.1.2, h5.2⟩

/-- An element that is opened as text meets the hypotheses of `C67_reopen`. -/
def textOpens (b : Bool) (e : Xml) : Bool :=
  writableB e && standardB N0 (resolve [] (Lib.indent b e)) &&
    match fromElement (F := Fix) fastkml true .KML none [] (resolve [] (Lib.indent b e)) with
    | .ok v => everywhereB (fun c ns nss attrs => lastingB c ns nss attrs) v && everywhereB legalB v
    | .error _ => false

/-- Such a document can be opened as text, saved, and opened again. -/
theorem textOpens_reopen {b : Bool} {e : Xml} (h : textOpens b e = true) (pp : Bool) :
    ∃ v t', fromString (F := Fix) Lib.xmlLib true .KML none [] (Lib.print b e) = .ok v ∧
      toString Lib.xmlLib pp ⟨none, .normal⟩ v = .ok t' ∧
      ∀ strict', fromString Lib.xmlLib strict' .KML none [] t' = .ok (prune v) := by
  simp only [textOpens, Bool.and_eq_true] at h
  obtain ⟨⟨h1, h2⟩, h3⟩ := h
  have hr := Lib.read_print b e (writableB_sound h1)
  split at h3
  · rename_i v hv
    rw [Bool.and_eq_true] at h3
    have hfs : fromString (F := Fix) Lib.xmlLib true .KML none [] (Lib.print b e) = .ok v := fromString_eq hr hv
    obtain ⟨t', h4, h5⟩ := C67_reopen Lib.xmlLib_faithful hr (by intro p hp; cases hp) (by decide) (by decide)
      (standardB_of h2) hfs (everywhere_of (q := fun c ns nss attrs => lastingB c ns nss attrs)
        (fun _ _ _ _ h => lastingB_of h) h3.1) (legal_of h3.2) pp
    exact ⟨v, t', hfs, h4, h5⟩
  · cases h3

example : textOpens true (openDoc []) = true := by decide +kernel
example : textOpens false (openDoc [kEl (s% "Placemark") [kEl (s% "Point") []], kEl (s% "Style") []]) = true := by
  decide +kernel

/-- The same from a file, for `C67_reopen_file`. -/
def fileOpens (b : Bool) (e : Xml) : Bool :=
  writableB e && standardB (mergeNs (dset (s% "kml") kmlNs [])) (resolve [] (Lib.indent b e)) &&
    decide ((resolve [] (Lib.indent b e)).tag = kmlNs ++ s% "kml") &&
    match parseRoot (F := Fix) none none true (resolve [] (Lib.indent b e)) with
    | .ok v => everywhereB (fun c ns nss attrs => lastingB c ns nss attrs) v && everywhereB legalB v
    | .error _ => false

theorem fileOpens_reopen {b : Bool} {e : Xml} (h : fileOpens b e = true) (pp : Bool) {fs : FS} {p : Str × Str}
    (hf : fs p = some (.plain (utf8 (Lib.print b e)))) (q : Str × Str) (hq : ¬ KmzName q.2) :
    ∃ v fs', (kmlParse (F := Fix) Lib.xmlLib fs p none none true (some false)).1 = .ok v ∧
      kmlWrite Lib.xmlLib fs q pp ⟨none, .normal⟩ v = (fs', .ok ()) ∧
      (kmlParse Lib.xmlLib fs' q none none true (some false)).1 = .ok (prune v) := by
  simp only [fileOpens, Bool.and_eq_true, decide_eq_true_eq] at h
  obtain ⟨⟨⟨h1, h2⟩, h0⟩, h3⟩ := h
  have hr := Lib.read_print b e (writableB_sound h1)
  have hld : Loads Lib.xmlLib (.plain (utf8 (Lib.print b e))) (resolve [] (Lib.indent b e)) := Or.inl (Lib.readFile_print hr)
  have hroot := loadRoot_of hf hld (indented_refl _) (strict := true) (v := some false) (Or.inl rfl)
  split at h3
  · rename_i v hv
    rw [Bool.and_eq_true] at h3
    have hk : (kmlParse (F := Fix) Lib.xmlLib fs p none none true (some false)).1 = .ok v := by
      simp only [kmlParse, hroot, hv]
    obtain ⟨fs', h4, h5⟩ := C67_reopen_file Lib.xmlLib_faithful hroot (nsForm_of (by decide)) (by decide) h0
      (nss := none) (by decide) (by intro p hp; cases hp) (by decide)
      (standardB_of h2) hk (everywhere_of (q := fun c ns nss attrs => lastingB c ns nss attrs)
        (fun _ _ _ _ h => lastingB_of h) h3.1) (legal_of h3.2) q hq pp
    exact ⟨v, fs', hk, h4, h5 true (some false) fun _ _ => Or.inl rfl⟩
  · cases h3

example : fileOpens true (openDoc []) = true := by decide +kernel

/-- The document of C59, without namespaces, meets the hypotheses of `C67_bare`. -/
example : Everywhere (Legal fastkml) (.obj .KML [] N0 bareAttrs) := legal_of (by decide +kernel)

/-- What is written for it, and what is read. -/
example : (match toString Lib.xmlLib true ⟨none, .normal⟩ (.obj .KML [] N0 bareAttrs) with
    | .ok t => (s% "<kml xmlns=\"http://www.opengis.net/kml/2.2\">\n<Document").isPrefixOf t &&
      match Lib.read t with
      | .ok e => match parseRoot (F := Fix) none none true e with
        | .ok w => decide (w = renVal (putInto kmlNs) (.obj .KML [] N0 bareAttrs))
        | .error _ => false
      | .error _ => false
    | .error _ => false) = true := by decide +kernel

end Verif
