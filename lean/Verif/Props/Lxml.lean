import Verif.Spec.Lxml
import Verif.Props.Said
import Verif.Props.Accepted

set_option linter.unusedSectionVars false
set_option linter.unusedSimpArgs false

/-!
# C75: texts that lxml refuses
-/

namespace Verif

open Spec

theorem lxmlChar_iff {c : Char} : lxmlChar c = true ↔ XmlCharacter c := by
  simp only [lxmlChar, XmlCharacter, XmlChar, Bool.or_eq_true, Bool.and_eq_true, decide_eq_true_eq]
  constructor
  · rintro ((h | h | h) | ⟨⟨h1, h2⟩, h3⟩)
    · exact .inl (.inl h)
    · exact .inl (.inr (.inl h))
    · exact .inr h
    · exact .inl (.inr (.inr ⟨h1, h2, h3⟩))
  · rintro ((h | h | ⟨h1, h2, h3⟩) | h)
    · exact .inl (.inl h)
    · exact .inl (.inr (.inl h))
    · exact .inr ⟨⟨h1, h2⟩, h3⟩
    · exact .inl (.inr (.inr h))

theorem allChar_iff {s : Str} : s.all lxmlChar = true ↔ XmlString s := by
  simp only [List.all_eq_true, lxmlChar_iff, XmlString]

/-- What lxml looks at. -/
structure PlainNode (d : Xml) : Prop where
  tag : XmlString d.tag
  attrs : ∀ p ∈ d.attrs, XmlString p.1 ∧ XmlString p.2
  text : ∀ s, d.text = some s → XmlString s

theorem acceptsAll_iff {ks : List Xml} : lxmlAcceptsAll ks = true ↔ ∀ k ∈ ks, lxmlAccepts k = true := by
  induction ks with
  | nil => simp [lxmlAcceptsAll]
  | cons k ks ih => simp [lxmlAcceptsAll, ih]

theorem accepts_node {t : Str} {as : List (Str × Str)} {x : Option Str} {ks : List Xml} :
    lxmlAccepts (.mk t as x ks) = true ↔ PlainNode (.mk t as x ks) ∧ ∀ k ∈ ks, lxmlAccepts k = true := by
  show ((t.all lxmlChar && (as.all fun p => p.1.all lxmlChar && p.2.all lxmlChar) &&
      (match x with
        | none => true
        | some s => s.all lxmlChar) && lxmlAcceptsAll ks) = true) ↔ _
  simp only [Bool.and_eq_true, allChar_iff, List.all_eq_true (p := fun p : Str × Str => p.1.all lxmlChar && p.2.all lxmlChar),
    acceptsAll_iff]
  constructor
  · rintro ⟨⟨⟨h1, h2⟩, h3⟩, h4⟩
    refine ⟨⟨h1, h2, ?_⟩, h4⟩
    rintro s hs
    simp only [Xml.text] at hs
    subst hs
    exact allChar_iff.mp h3
  · rintro ⟨⟨h1, h2, h3⟩, h4⟩
    refine ⟨⟨⟨h1, h2⟩, ?_⟩, h4⟩
    cases x with
    | none => rfl
    | some s => exact allChar_iff.mpr (h3 s rfl)

theorem accepts_iff (e : Xml) : lxmlAccepts e = true ↔ ∀ d, Sub e d → PlainNode d := by
  induction e using Xml.ind with
  | h t as x ks ih =>
    rw [accepts_node]
    constructor
    · rintro ⟨h1, h2⟩ d hd
      cases hd with
      | refl => exact h1
      | kid hk hd => exact (ih _ hk).mp (h2 _ hk) d hd
    · intro h
      exact ⟨h _ (.refl _), fun k hk => (ih k hk).mpr fun d hd => h d (.kid hk hd)⟩

variable {C F : Type} [DecidableEq C] [PyExt F]

/-! ## What is written comes from objects that are reached -/

theorem reached_inside {L : Lib C} {x v : Val C F} (h : Reached L x v) : Inside x v ∨ x = .none := by
  induction h with
  | self => exact .inl .self
  | @object c ns nss attrs it hit hp ht _ ih =>
    rcases ih with ih | ih
    · by_cases hn : attr it.attr attrs = .none
      · rw [hn] at ht; cases ht
      · exact .inl (.attr (attrOf_mem rfl hn) ih)
    · exact .inr ih
  | @member c ns nss attrs it l w hit hp hl hw ht _ ih =>
    rcases ih with ih | ih
    · exact .inl (.attr (attrOf_mem hl (by simp)) (.member hw ih))
    · exact .inr ih

theorem truthy_iff_nonEmpty {L : Lib C} {w : Val C F} : nonEmpty L w = true ↔ truthy L w = .ok true := by
  unfold nonEmpty
  split
  · rename_i b hb; rw [hb]; simp
  · rename_i x hx; rw [hx]; simp

/-- What a part of a written element is, if the object is one that is written. -/
theorem ser_reached {L : Lib C} (hw : ∀ c, WriteOk L c) {P : Pt F → Bool} {o : Opts} {e d : Xml} (hs : Sub e d) :
    ∀ v : Val C F, typed L P v = true → ser L o v = .ok e →
      ∃ c ns nss attrs, Reached L (.obj c ns nss attrs) v ∧ typed L P (.obj c ns nss attrs) = true ∧
        (ser L o (.obj c ns nss attrs) = .ok d ∨
          ∃ it ∈ L.itemsOf c,
            (place it.get = .child ∧
              d ∈ scalarKid ns nss it.node (shown o.verbosity it.dflt.val (value L c attrs it.attr))) ∨
            (place it.get = .children ∧ d ∈ listKids o.precision ns nss it.node (value L c attrs it.attr))) := by
  induction hs with
  | refl e =>
    intro v ht h
    obtain ⟨c, ns, nss, attrs, rfl⟩ := ser_isObj h
    exact ⟨c, ns, nss, attrs, .self, ht, Or.inl h⟩
  | @kid e k d hk hsub ih =>
    intro v ht h
    obtain ⟨c, ns, nss, attrs, rfl⟩ := ser_isObj h
    have W := ser_written (hw c) ht h
    obtain ⟨blocks, hb, he⟩ := W.kids
    rw [he] at hk
    obtain ⟨ks, hks, hk⟩ := List.mem_flatten.mp hk
    obtain ⟨it, hit, hB⟩ := all2_mem_right hb hks
    have hio := (hw c).item it hit
    unfold Block at hB
    split at hB
    · subst hB; cases hk
    · subst hB; cases hk
    · rename_i hp
      subst hB
      refine ⟨c, ns, nss, attrs, .self, ht, Or.inr ⟨it, hit, Or.inl ⟨hp, ?_⟩⟩⟩
      have : d = k := by
        unfold scalarKid at hk
        split at hk
        · cases hk
        · simp only [List.mem_singleton] at hk
          subst hk; exact sub_leaf hsub
      rw [this]; exact hk
    · rename_i hp
      subst hB
      refine ⟨c, ns, nss, attrs, .self, ht, Or.inr ⟨it, hit, Or.inr ⟨hp, ?_⟩⟩⟩
      have : d = k := by
        unfold listKids at hk
        split at hk
        · obtain ⟨w, _, rfl⟩ := List.mem_map.mp hk
          cases w <;> exact sub_leaf hsub
        · obtain ⟨w, _, rfl⟩ := List.mem_map.mp hk
          exact sub_leaf hsub
        · cases hk
      rw [this]; exact hk
    · rename_i hp
      rcases hB with ⟨_, rfl⟩ | ⟨x, htr, hx, rfl⟩
      · cases hk
      · rw [List.mem_singleton] at hk
        subst hk
        rw [value_stored hio (by simp [hp])] at hx htr
        obtain ⟨c', n', s', a', hr, hrest⟩ := ih _ (typed_attrOf ht _) hx
        exact ⟨c', n', s', a', .object hit hp htr hr, hrest⟩
    · rename_i hp
      obtain ⟨l, hl, _, hall⟩ := hB
      obtain ⟨w, hwl, hx⟩ := all2_mem_right hall hk
      obtain ⟨hwl, hne⟩ := List.mem_filter.mp hwl
      rw [value_stored hio (by simp [hp])] at hl
      obtain ⟨c', n', s', a', hr, hrest⟩ := ih _ (typed_member ht hl hwl) hx
      exact ⟨c', n', s', a', .member hit hp hl hwl (truthy_iff_nonEmpty.mp hne) hr, hrest⟩

/-- Objects that are reached are written. -/
theorem reached_written {L : Lib C} (hw : ∀ c, WriteOk L c) {P : Pt F → Bool} {o : Opts} {x v : Val C F} (hr : Reached L x v) :
    ∀ {e : Xml}, typed L P v = true → ser L o v = .ok e → typed L P x = true ∧ ∃ d, Sub e d ∧ ser L o x = .ok d := by
  induction hr with
  | self => exact fun ht h => ⟨ht, _, .refl _, h⟩
  | @object c ns nss attrs it hit hp htr _ ih =>
    intro e ht h
    obtain ⟨blocks, hb, he⟩ := (ser_written (hw c) ht h).kids
    obtain ⟨m1, b, m2, rfl, hB⟩ := all2_split hb hit
    unfold Block at hB
    simp only [hp] at hB
    rw [value_stored ((hw c).item it hit) (by simp [hp])] at hB
    have htr : truthy L (attrOf it.attr attrs) = .ok true := htr
    rcases hB with ⟨hf, _⟩ | ⟨y, _, hy, rfl⟩
    · rw [htr] at hf; cases hf
    · obtain ⟨h1, d, h2, h3⟩ := ih (typed_attrOf ht _) hy
      exact ⟨h1, d, .kid (by rw [he]; simp) h2, h3⟩
  | @member c ns nss attrs it l w hit hp hl hwl htr _ ih =>
    intro e ht h
    obtain ⟨blocks, hb, he⟩ := (ser_written (hw c) ht h).kids
    obtain ⟨m1, b, m2, rfl, hB⟩ := all2_split hb hit
    unfold Block at hB
    simp only [hp] at hB
    rw [value_stored ((hw c).item it hit) (by simp [hp])] at hB
    obtain ⟨l', hl', _, hall⟩ := hB
    have hl : attrOf it.attr attrs = .list l := hl
    rw [hl] at hl'
    cases hl'
    obtain ⟨k1, y, k2, rfl, hyx⟩ := all2_split hall (List.mem_filter.mpr ⟨hwl, truthy_iff_nonEmpty.mpr htr⟩)
    obtain ⟨h1, d, h2, h3⟩ := ih (typed_member ht hl hwl) hyx
    exact ⟨h1, d, .kid (by rw [he]; simp) h2, h3⟩

/-! ## Texts -/

theorem ascii_string {s : Str} (h : Ascii s) : XmlString s := fun c hc => .inl (ascii_text h c hc)

theorem legalName_string {s : Str} (h : legalName s = true) : XmlString s := by
  have hc : ∀ c, nameChar c = true → XmlCharacter c := by
    intro c hc
    refine .inl (.inr (.inr ?_))
    simp only [nameChar, nameStart, Bool.or_eq_true, Bool.and_eq_true, decide_eq_true_eq, beq_iff_eq, Char.le_def, UInt32.le_iff_toNat_le] at hc
    have e : c.toNat = c.val.toNat := rfl
    have a1 : 'A'.val.toNat = 65 := rfl
    have a2 : 'Z'.val.toNat = 90 := rfl
    have a3 : 'a'.val.toNat = 97 := rfl
    have a4 : 'z'.val.toNat = 122 := rfl
    have a5 : '0'.val.toNat = 48 := rfl
    have a6 : '9'.val.toNat = 57 := rfl
    rw [a1, a2, a3, a4, a5, a6] at hc
    rcases hc with ((((h | h) | h) | h) | h) | h
    · omega
    · omega
    · subst h; decide
    · omega
    · subst h; decide
    · subst h; decide
  cases s with
  | nil => intro c hc; cases hc
  | cons a r =>
    simp only [legalName, Bool.and_eq_true, List.all_eq_true] at h
    intro c hm
    rcases List.mem_cons.mp hm with rfl | hm
    · exact hc c (by simp [nameChar, h.1])
    · exact hc c (h.2 c hm)

theorem string_append {s t : Str} (hs : XmlString s) (ht : XmlString t) : XmlString (s ++ t) := by
  intro c hc
  rcases List.mem_append.mp hc with h | h
  · exact hs c h
  · exact ht c h

theorem nsGet_string {nss : NsMap} (h : ∀ p ∈ nss, XmlString p.2) (id : Str) : XmlString (nsGet nss id) := by
  unfold nsGet
  cases hd : dget id nss with
  | none => intro c hc; cases hc
  | some x => exact h _ (dget_mem hd)

theorem childNs_string {ns : Str} {nss : NsMap} (h : PlainNs ns nss) (v : Val C F) : XmlString (childNs ns nss v) := by
  unfold childNs
  split
  · split <;> exact nsGet_string h.2 _
  · exact nsGet_string h.2 _
  · exact h.1

variable [AsciiExt F]

theorem shown_plain [LawfulExt F] {L : Lib C} {P : Pt F → Bool} {c : C} (hw : WriteOk L c) (hx : PrintOk L c) {ns : Str} {nss : NsMap}
    {attrs : List (Str × Val C F)} (ht : typed L P (.obj c ns nss attrs) = true) (hl : PlainTexts L c attrs)
    {it : Item C} (hit : it ∈ L.itemsOf c) (hs : scalar it.get = true) {vb : Verbosity} {s : Str}
    (h : scalarText (shown vb it.dflt.val (value L c attrs it.attr)) = some s) : XmlString s := by
  have hio := hw.item it hit
  have hp : place it.get ≠ .children := by
    intro hp; cases hg : it.get <;> simp [hg, scalar, place] at hs hp
  rw [value_stored hio hp] at h
  have hk := (typed_obj.mp ht).1 it hit
  obtain ⟨-, h2⟩ := scalarText_legal hs (kindOk_shown hs hio.dflt hk vb) h
  rcases h2 with h2 | h2
  · rcases shown_str h2 with h3 | h3
    · exact hl it hit hs s h3
    · exact fun x hx' => .inl (hx.dflt it hit s h3 x hx')
  · exact ascii_string h2

theorem object_plain [LawfulExt F] {L : Lib C} {P : Pt F → Bool} {c : C} (hw : WriteOk L c) (hx : PrintOk L c) {ns : Str} {nss : NsMap}
    {attrs : List (Str × Val C F)} (ht : typed L P (.obj c ns nss attrs) = true) (hn : PlainNs ns nss) (hl : PlainTexts L c attrs)
    {o : Opts} {e : Xml} (h : ser L o (.obj c ns nss attrs) = .ok e) : PlainNode e := by
  have W := ser_written hw ht h
  obtain ⟨hnd, hk⟩ := ser_attrs h
  refine ⟨?_, ?_, ?_⟩
  · rw [W.tag]; exact string_append hn.1 (legalName_string hx.tag)
  · intro p hp
    rcases W.noAttr p hp with ⟨it, hit, hpl, hpn⟩ | ⟨hkml, hns, _⟩
    · refine ⟨hpn ▸ legalName_string (hx.node it hit (Or.inr (Or.inr hpl))), ?_⟩
      have h1 := W.attr it hit hpl
      unfold Xml.get at h1
      rw [← hpn, dget_of_mem_nodup hnd hp] at h1
      unfold attrText at h1
      simp only [hpl] at h1
      exact shown_plain hw hx ht hl hit (scalar_of_place (Or.inr (Or.inl hpl))) h1.symm
    · rw [hk hkml, hns] at hp
      simp only [if_true, List.mem_singleton] at hp
      subst hp
      exact ⟨legalName_string (by decide), fun c hc => .inl (legalUri_kml.2.1 c hc).1⟩
  · intro s hs
    by_cases htext : ∃ it ∈ L.itemsOf c, place it.get = .text
    · obtain ⟨it, hit, hpl⟩ := htext
      rw [W.text it hit hpl] at hs
      unfold elemText at hs
      split at hs
      · rename_i hg
        exact shown_plain hw hx ht hl hit (scalar_of_place (Or.inr (Or.inr hg))) hs
      · split at hs
        · cases hs
          exact ascii_string (ascii_coordsText _ _)
        · cases hs
      · cases hs
    · rw [W.noText fun it hit hp => htext ⟨it, hit, hp⟩] at hs
      cases hs

theorem leaf_plain {t s : Str} (ht : XmlString t) (hs : XmlString s) : PlainNode (.leaf t s) :=
  ⟨ht, (fun p hp => by cases hp), (fun u hu => by cases hu; exact hs)⟩

/-- If the texts and namespaces of all objects that are written are texts of XML, so is
everything in the element. -/
theorem written_plain [LawfulExt F] {L : Lib C} (hw : ∀ c, WriteOk L c) (hx : ∀ c, PrintOk L c) {P : Pt F → Bool} {o : Opts}
    {v : Val C F} (ht : typed L P v = true) (hn : ∀ c ns nss attrs, Reached L (.obj c ns nss attrs) v → PlainNs ns nss)
    (hl : ∀ c ns nss attrs, Reached L (.obj c ns nss attrs) v → PlainTexts L c attrs) {e : Xml} (h : ser L o v = .ok e) :
    ∀ d, Sub e d → PlainNode d := by
  intro d hd
  obtain ⟨c, ns, nss, attrs, hr, ht', hor⟩ := ser_reached hw hd v ht h
  have hN := hn _ _ _ _ hr
  have hL := hl _ _ _ _ hr
  rcases hor with hs | ⟨it, hit, ⟨hp, hm⟩ | ⟨hp, hm⟩⟩
  · exact object_plain (hw c) (hx c) ht' hN hL hs
  · unfold scalarKid at hm
    split at hm
    · cases hm
    · rename_i s hs
      rw [List.mem_singleton] at hm
      subst hm
      exact leaf_plain (string_append (childNs_string hN _) (legalName_string ((hx c).node it hit (Or.inl hp))))
        (shown_plain (hw c) (hx c) ht' hL hit (scalar_of_place (Or.inl hp)) hs)
  · have hnode := legalName_string ((hx c).node it hit (Or.inr (Or.inl hp)))
    unfold listKids at hm
    split at hm
    · obtain ⟨w, _, rfl⟩ := List.mem_map.mp hm
      cases w with
      | none => exact leaf_plain (string_append hN.1 hnode) (ascii_string (by unfold Ascii; decide))
      | some k => exact leaf_plain (string_append (nsGet_string hN.2 _) hnode) (ascii_string (ascii_toStr k))
    · obtain ⟨p, _, rfl⟩ := List.mem_map.mp hm
      exact leaf_plain (string_append hN.1 hnode) (ascii_string (ascii_coordText _ _))
    · cases hm

/-- Every text of an object that is written is in the element, unless it is empty or the
default. -/
theorem texts_written {L : Lib C} {P : Pt F → Bool} {c : C} (hw : WriteOk L c) (hx : PrintOk L c) {ns : Str} {nss : NsMap}
    {attrs : List (Str × Val C F)} (ht : typed L P (.obj c ns nss attrs) = true) {o : Opts} {e : Xml}
    (h : ser L o (.obj c ns nss attrs) = .ok e) (he : ∀ d, Sub e d → PlainNode d) : PlainTexts L c attrs := by
  intro it hit hsca s hs
  have W := ser_written hw ht h
  have hio := hw.item it hit
  have hs' : attrOf it.attr attrs = .str s := hs
  have hk := (typed_obj.mp ht).1 it hit
  rw [hs'] at hk
  by_cases h0 : s = []
  · subst h0; intro c hc; cases hc
  have hv : place it.get ≠ .children → value L c attrs it.attr = .str s := fun hp => by rw [value_stored hio hp, hs']
  -- what is shown
  have hsh : (shown o.verbosity it.dflt.val (.str s : Val C F) = .str s) ∨ it.dflt = .str s := by
    unfold shown
    split
    · exact .inl rfl
    · by_cases hq : scalarEq (.str s : Val C F) it.dflt.val = true
      · right
        cases hd : it.dflt <;> rw [hd] at hq <;> simp [scalarEq, number, Dflt.val] at hq
        rw [hq]
      · rw [if_neg hq]; exact .inl rfl
    · exact .inl rfl
  rcases hsh with hsh | hd
  · have hsc : scalarText (shown o.verbosity it.dflt.val (.str s : Val C F)) = some s := by
      rw [hsh]; simp [scalarText, h0]
    cases hg : it.get <;> simp [kindOk, hg, isInst, scalar, place] at hk hsca
    · -- node text
      have hp : place it.get = .text := by simp [hg, place]
      refine (he e (.refl e)).text s ?_
      rw [W.text it hit hp]
      unfold elemText
      simp only [hg]
      rw [hv (by simp [hp])]; exact hsc
    · -- child
      have hp : place it.get = .child := by simp [hg, place]
      obtain ⟨blocks, hb, hkids⟩ := W.kids
      obtain ⟨m1, b, m2, rfl, hB⟩ := all2_split hb hit
      unfold Block at hB
      simp only [hp] at hB
      rw [hv (by simp [hp])] at hB
      unfold scalarKid at hB
      rw [hsc] at hB
      refine (he _ (.kid (e := e) (k := .leaf (childNs ns nss (shown o.verbosity it.dflt.val (.str s : Val C F)) ++ it.node) s)
        ?_ (.refl _))).text s rfl
      rw [hkids, hB]; simp
    · -- XML attribute
      have hp : place it.get = .attr := by simp [hg, place]
      have h1 := W.attr it hit hp
      unfold attrText at h1
      simp only [hp] at h1
      rw [hv (by simp [hp]), hsc] at h1
      exact ((he e (.refl e)).attrs _ (dget_mem h1)).2
  · exact fun x hx' => .inl (hx.dflt it hit s hd x hx')

/-! ## C75 -/

/-- **C75.** With lxml an object whose element can be built otherwise is written if and only
if no text of the objects that are written has a character that XML does not have, and then
the element is the same; otherwise writing raises `ValueError`. -/
theorem C75_iff [LawfulExt F] {P : Pt F → Bool} {v : Val Cls F} (ht : typed fastkml P v = true)
    (hn : ∀ c ns nss attrs, Reached fastkml (.obj c ns nss attrs) v → PlainNs ns nss) {o : Opts} {e : Xml}
    (h : ser fastkml o v = .ok e) :
    (serLxml fastkml o v = .ok e ↔ ∀ c ns nss attrs, Reached fastkml (.obj c ns nss attrs) v → PlainTexts fastkml c attrs) ∧
      (serLxml fastkml o v ≠ .ok e → serLxml fastkml o v = .error .valueError) := by
  have hser : serLxml fastkml o v = if lxmlAccepts e then .ok e else .error .valueError := by
    unfold serLxml; rw [h]
  by_cases ha : lxmlAccepts e = true
  · rw [hser, if_pos ha]
    refine ⟨⟨fun _ c ns nss attrs hr => ?_, fun _ => rfl⟩, fun hne => absurd rfl hne⟩
    obtain ⟨ht', d, hd, hs⟩ := reached_written fastkml_writeOk hr ht h
    exact texts_written (fastkml_writeOk c) (fastkml_printOk c) ht' hs fun d' hd' => (accepts_iff e).mp ha d' (Sub.trans hd hd')
  · rw [hser, if_neg ha]
    refine ⟨⟨fun hh => (by cases hh), fun hl => ?_⟩, fun _ => rfl⟩
    exact absurd ((accepts_iff e).mpr (written_plain fastkml_writeOk fastkml_printOk ht hn hl h)) ha

theorem dset_from {a b : Str} {m : NsMap} {p : Str × Str} (h : p ∈ dset a b m) : p ∈ m ∨ p.2 = b := by
  induction m with
  | nil => simp [dset] at h; rw [h]; exact .inr rfl
  | cons q m ih =>
    simp only [dset] at h
    split at h
    · rcases List.mem_cons.mp h with rfl | h
      · exact .inr rfl
      · exact .inl (by simp [h])
    · rcases List.mem_cons.mp h with rfl | h
      · exact .inl (by simp)
      · rcases ih h with h | h
        · exact .inl (by simp [h])
        · exact .inr h

theorem Inside.within {x y z : Val C F} (h : Inside x y) (h' : Inside y z) : Inside x z := by
  induction h' with
  | self => exact h
  | attr hm _ ih => exact .attr hm ih
  | member hm _ ih => exact .member hm ih

theorem merge_string {m : NsMap} (h : ∀ p ∈ m, XmlString p.2) : ∀ p ∈ mergeNs m, XmlString p.2 := by
  have h1 : ∀ p ∈ mergeNs m, p ∈ defaultNameSpaces ∨ p.2 ∈ m.map Prod.snd := by
    have : ∀ (m n : NsMap), ∀ p ∈ dupdate n m, p ∈ n ∨ p.2 ∈ m.map Prod.snd := by
      intro m
      induction m with
      | nil => intro n p hp; exact .inl hp
      | cons q m ih =>
        intro n p hp
        rcases ih _ p hp with hp | hp
        · rcases dset_from hp with hp | hp
          · exact .inl hp
          · exact .inr (by simp [hp])
        · exact .inr (by simp at hp ⊢; exact .inr hp)
    exact this m _
  intro p hp
  rcases h1 p hp with hd | hd
  · have key : ∀ p ∈ defaultNameSpaces, p.2.all lxmlChar = true := by decide +kernel
    exact allChar_iff.mp (key p hd)
  · obtain ⟨q, hq, he⟩ := List.mem_map.mp hd
    exact he ▸ h q hq

/-- **C75, reading.** What is read with lxml can be written with lxml: an XML parser returns
only texts of XML, so writing with lxml gives what `ElementTree` would give. -/
theorem C75_read [LawfulExt F] {strict : Bool} {e : Xml} (he : PlainDoc e) {c : Cls} {ns : Str} {nss : NsMap}
    (hns : PlainNs ns nss) {v : Val Cls F} (h : parse fastkml strict e c ns nss = .ok v) (o : Opts) :
    serLxml fastkml o v = ser fastkml o v := by
  have ht := (parse_typed fastkml_readOk h).1
  have hm := merge_string hns.2
  cases hs : ser fastkml o v with
  | error x => unfold serLxml; rw [hs]
  | ok e' =>
    refine ((C75_iff ht ?_ hs).1).mpr ?_
    · intro c' ns' nss' as hr
      rcases reached_inside hr with hin | hin
      · rcases parse_inside e h hin with heq | ⟨k, hk, d, hd, _, ⟨_, it, _, _, _, id, _, hid⟩, hp⟩
        · obtain ⟨_, as', heq'⟩ := parse_typed fastkml_readOk h
          rw [heq'] at heq
          cases heq
          exact ⟨hns.1, hm⟩
        · obtain ⟨_, as', heq'⟩ := parse_typed fastkml_readOk hp
          cases heq'
          rw [mergeNs_idem]
          exact ⟨hid ▸ nsGet_string hm id, hm⟩
      · cases hin
    · intro c' ns' nss' as hr it hit _ s hs
      rcases reached_inside hr with hin | hin
      · have hin' : Inside (.str s) v := by
          refine Inside.within (.attr (attrOf_mem hs (by simp)) .self) hin
        refine C72_characters h (P := XmlCharacter) (fun d hd => ⟨(he d hd).1, fun q t hq => (he d hd).2 _ (dget_mem hq)⟩) s hin'
      · cases hin

/-- **C75** for typed objects: no text of any object in it has such a character. -/
theorem C75_writes [LawfulExt F] {c : Cls} {ns : Str} {nss : NsMap} {attrs : List (Str × Val Cls F)}
    (ht : typed fastkml dim23 (.obj c ns nss attrs) = true)
    (hl : Everywhere (fun c ns nss attrs => PlainNs ns nss ∧ PlainTexts fastkml c attrs) (.obj c ns nss attrs)) (o : Opts) :
    ∃ e, ser fastkml o (.obj c ns nss attrs) = .ok e ∧ serLxml fastkml o (.obj c ns nss attrs) = .ok e := by
  obtain ⟨e, he⟩ := C54_succeeds ht o
  have hin : ∀ {c' ns' nss' as}, Reached fastkml (.obj c' ns' nss' as) (.obj c ns nss attrs) →
      PlainNs ns' nss' ∧ PlainTexts fastkml c' as := by
    intro c' ns' nss' as hr
    rcases reached_inside hr with h | h
    · exact hl _ _ _ _ h
    · cases h
  exact ⟨e, he, ((C75_iff ht (fun _ _ _ _ hr => (hin hr).1) he).1).mpr fun _ _ _ _ hr => (hin hr).2⟩

/-- **C75, refusal.** An object with a text that has a control character, or with such an
object among the non-empty objects of its attributes, cannot be written with lxml, whatever
the options: writing raises `ValueError`. -/
theorem C75_refused [LawfulExt F] {v : Val Cls F} (ht : typed fastkml dim23 v = true)
    (hn : ∀ c ns nss attrs, Reached fastkml (.obj c ns nss attrs) v → PlainNs ns nss) {c : Cls} {ns : Str} {nss : NsMap}
    {attrs : List (Str × Val Cls F)} (hr : Reached fastkml (.obj c ns nss attrs) v) {it : Item Cls} (hit : it ∈ fastkml.itemsOf c)
    (hsc : scalar it.get = true) {s : Str} (hs : attr it.attr attrs = .str s) {x : Char} (hx : x ∈ s) (hb : ¬ XmlCharacter x) (o : Opts) :
    serLxml fastkml o v = .error .valueError := by
  obtain ⟨c0, n0, m0, a0, rfl⟩ : ∃ c ns nss attrs, v = .obj c ns nss attrs := by
    cases hr <;> exact ⟨_, _, _, _, rfl⟩
  obtain ⟨e, he⟩ := C54_succeeds ht o
  have hC := C75_iff ht hn he
  exact hC.2 fun hok => hb (hC.1.mp hok _ _ _ _ hr it hit hsc s hs x hx)

/-! ## Cases -/

theorem plainDoc_of {e : Xml} (h : lxmlAccepts e = true) : PlainDoc e :=
  fun d hd => ⟨((accepts_iff e).mp h d hd).text, fun p hp => (((accepts_iff e).mp h d hd).attrs p hp).2⟩

example {v : Val Cls Fix} (h : parse fastkml true richDoc .KML kmlNs [] = .ok v) (o : Opts) :
    serLxml fastkml o v = ser fastkml o v :=
  C75_read (plainDoc_of (by decide +kernel)) ⟨allChar_iff.mp (by decide +kernel), fun p hp => by cases hp⟩ h o

/-- A folder with a placemark whose description has a form feed. -/
def formFeed : Val Cls Fix :=
  newObj .Folder [(s% "features", .list [newObj .Placemark [(s% "description", .str ['a', Char.ofNat 12, 'b'])]])]

/-- `PlainNs`, computed. -/
def plainNsB (ns : Str) (nss : NsMap) : Bool := ns.all lxmlChar && nss.all fun p => p.2.all lxmlChar

theorem plainNs_of {v : Val Cls F} (h : everywhereB (fun _ ns nss _ => plainNsB ns nss) v = true) {c : Cls} {ns : Str} {nss : NsMap}
    {attrs : List (Str × Val Cls F)} (hr : Reached fastkml (.obj c ns nss attrs) v) : PlainNs ns nss := by
  rcases reached_inside hr with hin | hin
  · refine everywhere_of (Q := fun _ ns nss _ => PlainNs ns nss) (fun _ ns nss _ h => ?_) h _ _ _ _ hin
    simp only [plainNsB, Bool.and_eq_true, List.all_eq_true (p := fun p : Str × Str => p.2.all lxmlChar), allChar_iff] at h
    exact h
  · cases hin

/-- **C75, finding.** The constructors accept such texts, and `ElementTree` builds the
element; with lxml writing raises `ValueError`. -/
theorem C75_form_feed (o : Opts) : typed fastkml dim23 formFeed = true ∧ (∃ e, ser fastkml o formFeed = .ok e) ∧
    serLxml fastkml o formFeed = .error .valueError := by
  have ht : typed fastkml dim23 formFeed = true := by decide +kernel
  refine ⟨ht, C54_succeeds ht o, ?_⟩
  have hit : ∃ it ∈ fastkml.itemsOf .Placemark, it.attr = s% "description" ∧ scalar it.get = true := by decide +kernel
  have hif : ∃ it ∈ fastkml.itemsOf .Folder, it.attr = s% "features" ∧ place it.get = .objects := by decide +kernel
  obtain ⟨it, h1, h2, h3⟩ := hit
  obtain ⟨itf, g1, g2, g3⟩ := hif
  refine C75_refused ht (fun _ _ _ _ hr => plainNs_of (by decide +kernel) hr)
    (.member (l := [newObj .Placemark [(s% "description", .str ['a', Char.ofNat 12, 'b'])]]) g1 g3 ?_ List.mem_cons_self ?_ .self) h1 h3
    (s := ['a', Char.ofNat 12, 'b']) ?_ (x := Char.ofNat 12) (by simp) ?_ o
  · rw [g2]; rfl
  · decide +kernel
  · rw [h2]; rfl
  · intro h
    exact absurd (lxmlChar_iff.mpr h) (by decide)

end Verif
