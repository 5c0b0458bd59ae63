import Verif.Spec.XmlText
import Verif.Lemmas.Canonical
import Verif.Lemmas.Iso
import Verif.Lemmas.Rename
import Verif.Lemmas.Fastkml

/-!
# Written elements can be written as XML text
-/

set_option linter.unusedSectionVars false
set_option linter.unusedSimpArgs false

namespace Verif

open Spec

variable {C F : Type} [DecidableEq C] [PyExt F]

/-! ## Where the elements come from -/

theorem ser_isObj {L : Lib C} {o : Opts} {v : Val C F} {e : Xml} (h : ser L o v = .ok e) :
    ∃ c ns nss attrs, v = .obj c ns nss attrs := by
  cases v <;> first | exact ⟨_, _, _, _, rfl⟩ | (simp only [ser] at h; cases h)

theorem sub_leaf {t s : Str} {d : Xml} (h : Sub (.leaf t s) d) : d = .leaf t s := by
  cases h with
  | refl => rfl
  | kid hk _ => simp [Xml.leaf, Xml.kids] at hk

theorem all2_mem_right {α β : Type} {R : α → β → Prop} {l : List α} {m : List β} (h : All2 R l m) {b : β} (hb : b ∈ m) :
    ∃ a ∈ l, R a b := by
  induction h with
  | nil => cases hb
  | cons hr _ ih =>
    rcases List.mem_cons.mp hb with rfl | hb
    · exact ⟨_, by simp, hr⟩
    · obtain ⟨a, ha, hR⟩ := ih hb
      exact ⟨a, by simp [ha], hR⟩

/-- What a part of a written element is: the element of an object inside, or the leaf of one
of its scalars, times or coordinates. -/
def Origin (L : Lib C) (P : Pt F → Bool) (o : Opts) (v : Val C F) (d : Xml) : Prop :=
  ∃ c ns nss attrs, Inside (.obj c ns nss attrs) v ∧ typed L P (.obj c ns nss attrs) = true ∧
    (ser L o (.obj c ns nss attrs) = .ok d ∨
      ∃ it ∈ L.itemsOf c,
        (place it.get = .child ∧
          d ∈ scalarKid ns nss it.node (shown o.verbosity it.dflt.val (value L c attrs it.attr))) ∨
        (place it.get = .children ∧ d ∈ listKids o.precision ns nss it.node (value L c attrs it.attr)))

theorem Origin.mono {L : Lib C} {P : Pt F → Bool} {o : Opts} {v w : Val C F} {d : Xml} (h : Origin L P o v d)
    (hi : ∀ c ns nss attrs, Inside (.obj c ns nss attrs) v → Inside (.obj c ns nss attrs) w) : Origin L P o w d := by
  obtain ⟨c, ns, nss, attrs, h1, h2⟩ := h
  exact ⟨c, ns, nss, attrs, hi _ _ _ _ h1, h2⟩

theorem value_stored {L : Lib C} {c : C} {it : Item C} (h : ItemWriteOk L c it) (hp : place it.get ≠ .children)
    (attrs : List (Str × Val C F)) : value L c attrs it.attr = attrOf it.attr attrs :=
  (getattr_stored h hp (F := F) ⟨none, .normal⟩ attrs).2

theorem ser_sub {L : Lib C} (hw : ∀ c, WriteOk L c) {P : Pt F → Bool} {o : Opts} {e d : Xml} (hs : Sub e d) :
    ∀ v : Val C F, typed L P v = true → ser L o v = .ok e → Origin L P o v d := by
  induction hs with
  | refl e =>
    intro v ht h
    obtain ⟨c, ns, nss, attrs, rfl⟩ := ser_isObj h
    exact ⟨c, ns, nss, attrs, .self, ht, Or.inl h⟩
  | @kid e k d hk hsub ih =>
    intro v ht h
    obtain ⟨c, ns, nss, attrs, rfl⟩ := ser_isObj h
    have W := ser_written (hw c) ht h
    obtain ⟨blocks, hb, he⟩ := W.kids
    rw [he] at hk
    obtain ⟨ks, hks, hk⟩ := List.mem_flatten.mp hk
    obtain ⟨it, hit, hB⟩ := all2_mem_right hb hks
    have hio := (hw c).item it hit
    unfold Block at hB
    split at hB
    · subst hB; cases hk
    · subst hB; cases hk
    · rename_i hp
      subst hB
      refine ⟨c, ns, nss, attrs, .self, ht, Or.inr ⟨it, hit, Or.inl ⟨hp, ?_⟩⟩⟩
      have : d = k := by
        unfold scalarKid at hk
        split at hk
        · cases hk
        · simp only [List.mem_singleton] at hk
          subst hk; exact sub_leaf hsub
      rw [this]; exact hk
    · rename_i hp
      subst hB
      refine ⟨c, ns, nss, attrs, .self, ht, Or.inr ⟨it, hit, Or.inr ⟨hp, ?_⟩⟩⟩
      have : d = k := by
        unfold listKids at hk
        split at hk
        · obtain ⟨w, _, rfl⟩ := List.mem_map.mp hk
          cases w <;> exact sub_leaf hsub
        · obtain ⟨w, _, rfl⟩ := List.mem_map.mp hk
          exact sub_leaf hsub
        · cases hk
      rw [this]; exact hk
    · rename_i hp
      rcases hB with ⟨_, rfl⟩ | ⟨x, _, hx, rfl⟩
      · cases hk
      · rw [List.mem_singleton] at hk
        subst hk
        rw [value_stored hio (by simp [hp])] at hx
        refine (ih _ (typed_attrOf ht _) hx).mono fun c' n' s' a' hin => ?_
        obtain ⟨_, _, _, _, hv⟩ := ser_isObj hx
        exact .attr (attrOf_mem hv (by simp)) (hv ▸ hin)
    · rename_i hp
      obtain ⟨l, hl, _, hall⟩ := hB
      obtain ⟨w, hwl, hx⟩ := all2_mem_right hall hk
      have hwl := (List.mem_filter.mp hwl).1
      rw [value_stored hio (by simp [hp])] at hl
      refine (ih _ (typed_member ht hl hwl) hx).mono fun c' n' s' a' hin => ?_
      exact .attr (attrOf_mem hl (by simp)) (.member hwl hin)

/-! ## Attributes -/

theorem foldl_dset_nodup {l d : List (Str × Str)} (h : (d.map Prod.fst).Nodup) :
    ((l.foldl (fun d p => dset p.1 p.2 d) d).map Prod.fst).Nodup := by
  induction l generalizing d with
  | nil => exact h
  | cons p l ih => exact ih (dset_nodup h)

/-- The keys of the attributes of a written element are distinct, and the only `xmlns` is
that of a `KML` without namespace. -/
theorem ser_attrs {L : Lib C} {c : C} {o : Opts} {ns : Str} {nss : NsMap} {attrs : List (Str × Val C F)} {e : Xml}
    (h : ser L o (.obj c ns nss attrs) = .ok e) : (e.attrs.map Prod.fst).Nodup ∧
      ((L.info c).special = .kml → e.attrs = if ns = [] then [(s% "xmlns", kmlUri)] else []) := by
  by_cases hk : (L.info c).special = .kml
  · rw [ser_obj] at h
    simp only [serStep, hk, if_true] at h
    have hroot : ∀ root, setXmlSubList (getattr .kml (serAttrs L o attrs) (s% "features")) root = .ok e →
        e.attrs = root.attrs := by
      intro root hr
      unfold setXmlSubList at hr
      split at hr
      · cases hr; rfl
      · rw [serElems_eq] at hr
        split at hr
        · cases hr
        · cases hr; simp [Xml.appends, Xml.attrs, Contrib.apply]
      · cases hr
    have := hroot _ h
    have h2 : e.attrs = if ns = [] then [(s% "xmlns", kmlUri)] else [] := by
      rw [this]
      by_cases hn : ns = [] <;> simp [hn, Xml.setAttr, Xml.new, Xml.attrs, dset]
    refine ⟨?_, fun _ => h2⟩
    rw [h2]; split <;> simp
  · obtain ⟨ks, _, rfl⟩ := (ser_iff hk).mp h
    exact ⟨foldl_dset_nodup (by simp), fun hk' => absurd hk' hk⟩

/-! ## Characters -/

theorem ascii_text {s : Str} (h : Ascii s) : LegalText s := by
  intro c hc
  obtain ⟨h1, h2⟩ := h c hc
  exact Or.inr (Or.inr ⟨h1, by omega, by omega⟩)

theorem text_value {s : Str} (h : LegalText s) : LegalValue s := fun c hc => Or.inl (h c hc)

theorem ascii_append {s t : Str} (hs : Ascii s) (ht : Ascii t) : Ascii (s ++ t) := by
  intro c hc
  rcases List.mem_append.mp hc with h | h
  · exact hs c h
  · exact ht c h

theorem ascii_cons {c : Char} {t : Str} (hs : 0x20 ≤ c.toNat ∧ c.toNat < 0x7F) (ht : Ascii t) : Ascii (c :: t) := by
  intro d hd
  rcases List.mem_cons.mp hd with rfl | h
  · exact hs
  · exact ht d h

theorem ascii_nil : Ascii [] := fun _ h => by cases h

theorem ascii_digits {s : Str} (h : Digits s) : Ascii s := by
  intro c hc
  obtain ⟨n, hn⟩ := h c hc
  unfold digitVal at hn
  split at hn
  · rename_i hc
    have h1 : 48 ≤ c.toNat := hc.1
    have h2 : c.toNat ≤ 57 := hc.2
    omega
  · cases hn

theorem ascii_pad (w n : Nat) : Ascii (pad w n) := ascii_digits (pad_digits w n)
theorem ascii_natRepr (n : Nat) : Ascii (natRepr n) := ascii_digits (natRepr_digits n)

theorem ascii_intRepr (i : Int) : Ascii (intRepr i) := by
  unfold intRepr
  split
  · exact ascii_cons (by decide) (ascii_natRepr _)
  · exact ascii_natRepr _

theorem ascii_isoDate (d : Date) : Ascii (isoDate d) := by
  unfold isoDate
  exact ascii_append (ascii_append (ascii_pad _ _) (ascii_cons (by decide) (ascii_pad _ _)))
    (ascii_cons (by decide) (ascii_pad _ _))

theorem ascii_isoOff (z : Option Int) : Ascii (isoOff z) := by
  unfold isoOff
  split
  · exact ascii_nil
  · refine ascii_append (ascii_cons ?_ (ascii_pad _ _)) (ascii_cons (by decide) (ascii_pad _ _))
    split <;> decide

theorem ascii_iso (m : Moment) : Ascii m.iso := by
  cases m with
  | date d => exact ascii_isoDate d
  | dt d t =>
    simp only [Moment.iso, isoDateTime]
    refine ascii_append (ascii_append (ascii_append (ascii_append (ascii_append (ascii_isoDate d)
      (ascii_cons (by decide) (ascii_pad _ _))) (ascii_cons (by decide) (ascii_pad _ _)))
      (ascii_cons (by decide) (ascii_pad _ _))) ?_) (ascii_isoOff _)
    split
    · exact ascii_nil
    · exact ascii_cons (by decide) (ascii_pad _ _)

theorem ascii_toStr (k : KmlDateTime) : Ascii k.toStr := by
  unfold KmlDateTime.toStr
  split
  · exact ascii_natRepr _
  · exact ascii_append (ascii_natRepr _) (ascii_cons (by decide) (ascii_pad _ _))
  · exact ascii_isoDate _
  · exact ascii_iso _

theorem enum_ascii {e : EnumId} {x : Str} (h : x ∈ e.values) : Ascii x ∧ x ≠ [] := by
  have : ∀ e : EnumId, ∀ x ∈ e.values, (∀ c ∈ x, 0x20 ≤ c.toNat ∧ c.toNat < 0x7F) ∧ x ≠ [] := by
    intro e; cases e <;> decide
  exact this e x h

theorem ascii_join {sep : Str} (hs : Ascii sep) : ∀ {l : List Str}, (∀ x ∈ l, Ascii x) → Ascii (join sep l)
  | [], _ => ascii_nil
  | [p], h => h p (by simp)
  | p :: q :: ps, h => ascii_append (ascii_append (h p (by simp)) hs)
      (ascii_join hs fun x hx => h x (List.mem_cons_of_mem _ hx))

section
variable [LawfulExt F] [AsciiExt F]

theorem ascii_fmt (p : Option Nat) (f : F) : Ascii (fmt p f) := by
  cases p with
  | none => exact AsciiExt.repr f
  | some n => exact AsciiExt.fixed n f

theorem fmt_ne_nil (p : Option Nat) (f : F) : fmt p f ≠ [] := by
  cases p with
  | none => exact (LawfulExt.repr_plain f).1
  | some n => exact (LawfulExt.fixed_plain n f).1

theorem ascii_coordsText (p : Option Nat) (l : List (Pt F)) : Ascii (coordsText p l) := by
  refine ascii_join (ascii_cons (by decide) ascii_nil) fun x hx => ?_
  obtain ⟨c, _, rfl⟩ := List.mem_map.mp hx
  refine ascii_join (ascii_cons (by decide) ascii_nil) fun x hx => ?_
  obtain ⟨f, _, rfl⟩ := List.mem_map.mp hx
  exact ascii_fmt p f

theorem ascii_coordText (p : Option Nat) (c : Pt F) : Ascii (join [' '] (c.map (fmt p))) := by
  refine ascii_join (ascii_cons (by decide) ascii_nil) fun x hx => ?_
  obtain ⟨f, _, rfl⟩ := List.mem_map.mp hx
  exact ascii_fmt p f

/-- The text of a scalar is printable ASCII, unless it is a text. -/
theorem scalarText_legal {P : Pt F → Bool} {it : Item C} (hs : scalar it.get = true) {w : Val C F}
    (hk : kindOk P it w = true) {s : Str} (h : scalarText w = some s) : s ≠ [] ∧ (w = .str s ∨ Ascii s) := by
  have henum : ∀ e x, w = .enum e x → x ∈ e.values := by
    rintro e x rfl
    cases hg : it.get <;> simp [kindOk, hg] at hk <;> first | exact hk.2 | simp [scalar, place, hg] at hs
  cases w <;> simp only [scalarText, reduceCtorEq, Option.some.injEq] at h
  · split at h
    · cases h
    · rename_i hn
      cases h
      exact ⟨hn, Or.inl rfl⟩
  · subst h
    rename_i b
    cases b
    · exact ⟨by decide, Or.inr (show Ascii _ from ascii_cons (by decide) ascii_nil)⟩
    · exact ⟨by decide, Or.inr (show Ascii _ from ascii_cons (by decide) ascii_nil)⟩
  · subst h; exact ⟨intRepr_ne_nil _, Or.inr (ascii_intRepr _)⟩
  · subst h; exact ⟨(LawfulExt.repr_plain _).1, Or.inr (AsciiExt.repr _)⟩
  · subst h
    obtain ⟨h1, h2⟩ := enum_ascii (henum _ _ rfl)
    exact ⟨h2, Or.inr h1⟩
  · subst h; exact ⟨toStr_ne_nil _, Or.inr (ascii_toStr _)⟩

/-! ## What the registry needs -/

/-- An item that gives no children. -/
def noKids (it : Item C) : Bool := decide (place it.get = .text) || decide (place it.get = .attr)

/-- The names and defaults of a class can be written, elements with texts have no children. -/
def printOk (L : Lib C) (c : C) : Bool :=
  legalName (L.info c).tag &&
  ((L.itemsOf c).all fun it =>
    (decide (place it.get = .text) || legalName it.node || decide (place it.get = .object) ||
      decide (place it.get = .objects)) &&
    decide (it.node ≠ s% "xmlns") &&
    (match it.dflt with | .str s => decide (LegalText s) | _ => true) &&
    (decide (place it.get ≠ .text) || (L.itemsOf c).all noKids)) &&
  (decide ((L.info c).tag ∉ [s% "coordinates", s% "coord", s% "angles", s% "when"]) || (L.itemsOf c).all noKids)

structure PrintOk (L : Lib C) (c : C) : Prop where
  tag : legalName (L.info c).tag = true
  node : ∀ it ∈ L.itemsOf c, place it.get = .child ∨ place it.get = .children ∨ place it.get = .attr →
    legalName it.node = true
  xmlns : ∀ it ∈ L.itemsOf c, it.node ≠ s% "xmlns"
  dflt : ∀ it ∈ L.itemsOf c, ∀ s, it.dflt = .str s → LegalText s
  text : ∀ it ∈ L.itemsOf c, place it.get = .text → ∀ it' ∈ L.itemsOf c, noKids it' = true
  names : (L.info c).tag ∈ [s% "coordinates", s% "coord", s% "angles", s% "when"] →
    ∀ it' ∈ L.itemsOf c, noKids it' = true

theorem printOk_iff {L : Lib C} {c : C} (h : printOk L c = true) : PrintOk L c := by
  simp only [printOk, Bool.and_eq_true, Bool.or_eq_true, List.all_eq_true, decide_eq_true_eq] at h
  obtain ⟨⟨h1, h2⟩, h3⟩ := h
  refine ⟨h1, fun it hit hp => ?_, fun it hit => (h2 it hit).1.1.2, fun it hit s hs => ?_, fun it hit hp => ?_, fun hm => ?_⟩
  · rcases (h2 it hit).1.1.1 with ((h | h) | h) | h
    · rw [h] at hp; simp at hp
    · exact h
    · rw [h] at hp; simp at hp
    · rw [h] at hp; simp at hp
  · have := (h2 it hit).1.2
    rw [hs] at this
    simpa using this
  · rcases (h2 it hit).2 with h | h
    · exact absurd hp h
    · exact h
  · rcases h3 with h | h
    · exact absurd hm h
    · exact h

theorem fastkml_printOk (c : Cls) : PrintOk fastkml c := by
  have : ∀ c ∈ Cls.all, printOk fastkml c = true := by decide +kernel
  exact printOk_iff (this c (Cls.mem_all c))

/-! ## The nodes -/

theorem noKids_kids {L : Lib C} {o : Opts} {c : C} {ns : Str} {nss : NsMap} {attrs : List (Str × Val C F)} {e : Xml}
    (W : Written L o c ns nss attrs e) (h : ∀ it ∈ L.itemsOf c, noKids it = true) : e.kids = [] := by
  obtain ⟨blocks, hb, he⟩ := W.kids
  rw [he]
  refine List.flatten_eq_nil_iff.mpr fun ks hks => ?_
  obtain ⟨it, hit, hB⟩ := all2_mem_right hb hks
  have := h it hit
  simp only [noKids, Bool.or_eq_true, decide_eq_true_eq] at this
  unfold Block at hB
  rcases this with h | h <;> simp only [h] at hB <;> exact hB

theorem not_brace_name {s : Str} (h : legalName s = true) : '}' ∉ s := by
  have key : nameChar '}' = false ∧ nameStart '}' = false := by decide
  cases s with
  | nil => simp
  | cons c r =>
    simp only [legalName, Bool.and_eq_true, List.all_eq_true] at h
    intro hm
    rcases List.mem_cons.mp hm with rfl | hm
    · rw [key.2] at h; exact absurd h.1 (by simp)
    · have := h.2 _ hm
      rw [key.1] at this; cases this

theorem legalNs_form {n : Str} (h : LegalNs n) : NsForm n := by
  rcases h with rfl | ⟨u, rfl, _⟩
  · exact Or.inl rfl
  · exact Or.inr ⟨_, rfl⟩

theorem nsGet_legal {nss : NsMap} (h : ∀ p ∈ nss, LegalNs p.2) (id : Str) : LegalNs (nsGet nss id) := by
  unfold nsGet
  cases hd : dget id nss with
  | none => exact Or.inl rfl
  | some n => exact h _ (dget_mem hd)

theorem childNs_legal {ns : Str} {nss : NsMap} (h1 : LegalNs ns) (h2 : ∀ p ∈ nss, LegalNs p.2) (v : Val C F) :
    LegalNs (childNs ns nss v) := by
  unfold childNs
  split
  · split <;> exact nsGet_legal h2 _
  · exact nsGet_legal h2 _
  · exact h1

theorem leaf_legal {n l s : Str} (hn : LegalNs n) (hl : legalName l = true) (hs : s ≠ []) (ht : LegalText s) :
    LegalNode (.leaf (n ++ l) s) := by
  refine ⟨⟨n, l, rfl, hn, hl⟩, by simp [Xml.leaf, Xml.attrs], ?_, ?_, ?_⟩
  · intro p hp; cases hp
  · intro u hu; cases hu
  · intro t ht'
    simp only [Xml.leaf, Xml.text, Option.some.injEq] at ht'
    subst ht'
    exact ⟨hs, ht, rfl⟩

theorem scalar_of_place {g : GetFn} (h : place g = .child ∨ place g = .attr ∨ g = .nodeText) : scalar g = true := by
  cases g <;> simp [place, scalar] at h ⊢

/-- What is shown of a text is a text of the object or a default. -/
theorem shown_str {vb : Verbosity} {it : Item C} {v : Val C F} {s : Str}
    (h : shown vb it.dflt.val v = .str s) : v = .str s ∨ it.dflt = .str s := by
  cases vb <;> simp only [shown] at h
  · split at h
    · cases h
    · exact Or.inl h
  · exact Or.inl h
  · split at h
    · right
      cases hd : it.dflt <;> rw [hd] at h <;> simp [Dflt.val] at h
      rw [h]
    · exact Or.inl h

/-- The texts that are written for scalars. -/
theorem shown_legal {L : Lib C} {P : Pt F → Bool} {c : C} (hw : WriteOk L c) (hx : PrintOk L c) {ns : Str} {nss : NsMap}
    {attrs : List (Str × Val C F)} (ht : typed L P (.obj c ns nss attrs) = true) (hl : Legal L c ns nss attrs)
    {it : Item C} (hit : it ∈ L.itemsOf c) (hs : scalar it.get = true) {vb : Verbosity} {s : Str}
    (h : scalarText (shown vb it.dflt.val (value L c attrs it.attr)) = some s) :
    s ≠ [] ∧ (place it.get ≠ .attr → LegalText s) ∧ (place it.get = .attr → LegalValue s) := by
  have hio := hw.item it hit
  have hp : place it.get ≠ .children := by
    intro hp; cases hg : it.get <;> simp [hg, scalar, place] at hs hp
  rw [value_stored hio hp] at h
  have hk := (typed_obj.mp ht).1 it hit
  obtain ⟨h1, h2⟩ := scalarText_legal hs (kindOk_shown hs hio.dflt hk vb) h
  refine ⟨h1, ?_⟩
  rcases h2 with h2 | h2
  · rcases shown_str h2 with h3 | h3
    · by_cases ha : place it.get = .attr
      · exact ⟨fun h => absurd ha h, fun _ => hl.value it hit ha s h3⟩
      · exact ⟨fun _ => hl.text it hit ha s h3, fun h => absurd h ha⟩
    · exact ⟨fun _ => hx.dflt it hit s h3, fun _ => text_value (hx.dflt it hit s h3)⟩
  · exact ⟨fun _ => ascii_text h2, fun _ => text_value (ascii_text h2)⟩

theorem dget_of_mem_nodup {d : List (Str × Str)} (hn : (d.map Prod.fst).Nodup) {p : Str × Str} (hp : p ∈ d) :
    dget p.1 d = some p.2 := by
  induction d with
  | nil => cases hp
  | cons q d ih =>
    simp only [List.map_cons, List.nodup_cons] at hn
    rcases List.mem_cons.mp hp with rfl | hp
    · simp [dget]
    · have : q.1 ≠ p.1 := fun he => hn.1 (he ▸ List.mem_map_of_mem hp)
      simp only [dget, this, if_false]
      exact ih hn.2 hp

theorem legalUri_kml : LegalUri kmlUri := by decide +kernel

theorem object_legal {L : Lib C} {c : C} (hw : WriteOk L c) (hx : PrintOk L c) {ns : Str} {nss : NsMap}
    {attrs : List (Str × Val C F)} (ht : typed L dim23 (.obj c ns nss attrs) = true) (hl : Legal L c ns nss attrs)
    {o : Opts} {e : Xml} (h : ser L o (.obj c ns nss attrs) = .ok e) : LegalNode e := by
  have W := ser_written hw ht h
  obtain ⟨hn, hk⟩ := ser_attrs h
  have hattr : ∀ p ∈ e.attrs, (∃ it ∈ L.itemsOf c, p.1 = it.node ∧ legalName it.node = true ∧ LegalValue p.2) ∨
      ((L.info c).special = .kml ∧ ns = [] ∧ p = (s% "xmlns", kmlUri)) := by
    intro p hp
    rcases W.noAttr p hp with ⟨it, hit, hpl, hpn⟩ | ⟨hkml, hns, _⟩
    · left
      refine ⟨it, hit, hpn, hx.node it hit (Or.inr (Or.inr hpl)), ?_⟩
      have h1 := W.attr it hit hpl
      unfold Xml.get at h1
      rw [← hpn, dget_of_mem_nodup hn hp] at h1
      unfold attrText at h1
      simp only [hpl] at h1
      exact (shown_legal hw hx ht hl hit (scalar_of_place (Or.inr (Or.inl hpl))) h1.symm).2.2 hpl
    · right
      rw [hk hkml, hns] at hp
      exact ⟨hkml, hns, by simpa using hp⟩
  refine ⟨⟨ns, _, W.tag, hl.ns, hx.tag⟩, hn, ?_, ?_, ?_⟩
  · intro p hp
    rcases hattr p hp with ⟨it, hit, h1, h2, h3⟩ | ⟨_, _, rfl⟩
    · exact ⟨h1 ▸ h2, h3⟩
    · exact ⟨by decide, fun c hc => Or.inl (legalUri_kml.2.1 c hc).1⟩
  · intro u hu
    rcases hattr _ hu with ⟨it, hit, h1, _⟩ | ⟨_, hns, he⟩
    · exact absurd h1.symm (hx.xmlns it hit)
    · cases he
      refine ⟨legalUri_kml, ?_⟩
      rw [W.tag, hns]
      exact (nsPart_tag (Or.inl rfl) (not_brace_name hx.tag)).1
  · intro s hs
    by_cases htext : ∃ it ∈ L.itemsOf c, place it.get = .text
    · obtain ⟨it, hit, hpl⟩ := htext
      have hkids := noKids_kids W (hx.text it hit hpl)
      rw [W.text it hit hpl] at hs
      unfold elemText at hs
      split at hs
      · rename_i hg
        obtain ⟨h1, h2, _⟩ := shown_legal hw hx ht hl hit (scalar_of_place (Or.inr (Or.inr hg))) hs
        exact ⟨h1, h2 (by rw [hpl]; decide), hkids⟩
      · rename_i hg
        split at hs
        · rename_i p l hv
          cases hs
          refine ⟨?_, ascii_text (ascii_coordsText _ _), hkids⟩
          have hkd := (typed_obj.mp ht).1 it hit
          rw [value_stored (hw.item it hit) (by simp [hg, place])] at hv
          rw [hv] at hkd
          simp only [kindOk, hg, List.all_cons, Bool.and_eq_true, dim23, decide_eq_true_eq] at hkd
          unfold coordsText
          refine join_ne_nil ?_
          cases p with
          | nil => simp at hkd
          | cons f fs => exact join_ne_nil (fmt_ne_nil _ _)
        · cases hs
      · cases hs
    · rw [W.noText fun it hit hp => htext ⟨it, hit, hp⟩] at hs
      cases hs

/-- What is written for a typed object with legal texts can be written as XML text. -/
theorem ser_writable {L : Lib C} (hw : ∀ c, WriteOk L c) (hx : ∀ c, PrintOk L c) {o : Opts} {v : Val C F}
    (ht : typed L dim23 v = true) (hl : Everywhere (Legal L) v) {e : Xml} (h : ser L o v = .ok e) : Writable e := by
  intro d hd
  obtain ⟨c, ns, nss, attrs, hin, ht', hor⟩ := ser_sub hw hd v ht h
  have hL := hl c ns nss attrs hin
  rcases hor with hs | ⟨it, hit, ⟨hp, hm⟩ | ⟨hp, hm⟩⟩
  · exact object_legal (hw c) (hx c) ht' hL hs
  · unfold scalarKid at hm
    split at hm
    · cases hm
    · rename_i s hs
      rw [List.mem_singleton] at hm
      subst hm
      obtain ⟨h1, h2, _⟩ := shown_legal (hw c) (hx c) ht' hL hit (scalar_of_place (Or.inl hp)) hs
      exact leaf_legal (childNs_legal hL.ns hL.nss _) ((hx c).node it hit (Or.inl hp)) h1 (h2 (by rw [hp]; decide))
  · have hnode := (hx c).node it hit (Or.inr (Or.inl hp))
    unfold listKids at hm
    split at hm
    · obtain ⟨w, _, rfl⟩ := List.mem_map.mp hm
      cases w with
      | none => exact leaf_legal hL.ns hnode (by decide) (by decide)
      | some k => exact leaf_legal (nsGet_legal hL.nss _) hnode (toStr_ne_nil k) (ascii_text (ascii_toStr k))
    · rename_i l hv
      obtain ⟨p, hpl, rfl⟩ := List.mem_map.mp hm
      refine leaf_legal hL.ns hnode ?_ (ascii_text (ascii_coordText _ _))
      have hp0 : p ≠ [] := by
        have hio := (hw c).item it hit
        have htr : (L.info c).special = .track ∧ (it.attr = s% "coords" ∨ it.attr = s% "angles") := by
          cases hg : it.get <;> simp [hg, place] at hp
          · obtain ⟨h1, h2⟩ := hio.whens.mp hg
            rw [h2] at hv
            simp [value, h1] at hv
          · exact hio.coords.mp hg
        obtain ⟨h1, h2⟩ := htr
        have htk := (typed_obj.mp ht').2.1 h1
        rcases h2 with h2 | h2
        · rw [h2] at hv
          simp [value, h1] at hv
          subst hv
          rw [List.mem_filter] at hpl
          obtain ⟨r, hr, rfl⟩ := List.mem_map.mp hpl.1
          unfold trackOk at htk
          unfold rows at hr
          split at htk
          · rename_i l hl'
            rw [hl'] at hr
            simp only [List.all_eq_true, decide_eq_true_eq] at htk
            have := htk r hr
            intro h0; rw [h0] at this; simp at this
          · cases htk
        · rw [h2] at hv
          simp [value, h1] at hv
          subst hv
          obtain ⟨a, _, rfl⟩ := List.mem_map.mp hpl
          simp
      exact coordText_ne_nil _ hp0
    · cases hm

/-- Written elements with children are not the ones whose white space matters, and have no text. -/
theorem ser_shape {L : Lib C} (hw : ∀ c, WriteOk L c) (hx : ∀ c, PrintOk L c) {o : Opts} {v : Val C F}
    (ht : typed L dim23 v = true) (hl : Everywhere (Legal L) v) {e : Xml} (h : ser L o v = .ok e) :
    ∀ d, Sub e d → d.kids ≠ [] → d.text = none ∧
      localName d.tag ∉ [s% "coordinates", s% "coord", s% "angles", s% "when"] := by
  intro d hd hk
  refine ⟨?_, ?_⟩
  · cases hdt : d.text with
    | none => rfl
    | some s => exact absurd ((ser_writable hw hx ht hl h d hd).text s hdt).2.2 hk
  · obtain ⟨c, ns, nss, attrs, hin, ht', hor⟩ := ser_sub hw hd v ht h
    rcases hor with hs | ⟨it, hit, ⟨_, hm⟩ | ⟨_, hm⟩⟩
    · have W := ser_written (hw c) ht' hs
      rw [W.tag, localOf_append (legalNs_form (hl c ns nss attrs hin).ns) (not_brace_name (hx c).tag)]
      intro hmem
      exact hk (noKids_kids W ((hx c).names hmem))
    · unfold scalarKid at hm
      split at hm
      · cases hm
      · rw [List.mem_singleton] at hm
        subst hm
        exact absurd rfl hk
    · unfold listKids at hm
      split at hm
      · obtain ⟨w, _, rfl⟩ := List.mem_map.mp hm
        cases w <;> exact absurd rfl hk
      · obtain ⟨p, hpl, rfl⟩ := List.mem_map.mp hm
        exact absurd rfl hk
      · cases hm

end

theorem blank_trimmed {x : Option Str} (h : blank x = true) : trimmed x = none := by
  cases x with
  | none => rfl
  | some s =>
    simp only [blank, List.all_eq_true] at h
    simp [trimmed, (strip_nil_iff s).mpr h]

theorem respaced_indented {e e' : Xml} (h : Indented e e') :
    (∀ d, Sub e d → d.kids ≠ [] → d.text = none ∧
      localName d.tag ∉ [s% "coordinates", s% "coord", s% "angles", s% "when"]) → Respaced e e' := by
  induction h with
  | @mk t a x x' ks ks' hx hlen hks ih =>
    intro hs
    cases ks with
    | nil =>
      cases ks' with
      | cons _ _ => simp at hlen
      | nil =>
        rcases hx with rfl | ⟨h, _⟩
        · exact .leaf rfl (fun _ => rfl) (fun _ => Or.inl rfl) (fun _ => rfl)
        · exact absurd rfl h
    | cons k ks =>
      obtain ⟨h1, h2⟩ := hs _ (.refl _) (by simp [Xml.kids])
      simp only [Xml.text] at h1
      subst h1
      have hx' : trimmed x' = none := by
        rcases hx with rfl | ⟨_, _, h⟩
        · rfl
        · exact blank_trimmed h
      refine .node rfl hx' h2 hlen fun p hp => ih p hp fun d hd => hs d (.kid ?_ hd)
      exact List.of_mem_zip (a := p.1) (b := p.2) hp |>.1

mutual
theorem indented_refl : ∀ e : Xml, Indented e e
  | .mk t a x ks => by
    refine .mk (Or.inl rfl) rfl (indented_refls ks)
termination_by structural e => e
theorem indented_refls : ∀ ks : List Xml, ∀ p ∈ ks.zip ks, Indented p.1 p.2
  | [], p, hp => by cases hp
  | k :: ks, p, hp => by
    rw [List.zip_cons_cons] at hp
    rcases List.mem_cons.mp hp with rfl | hp
    · exact indented_refl k
    · exact indented_refls ks p hp
termination_by structural ks => ks
end

theorem indented_tag {e e' : Xml} (h : Indented e e') : e'.tag = e.tag := by cases h; rfl

/-! ## Without `xmlns` -/

mutual
theorem resolve_plain : ∀ e : Xml, (∀ d, Sub e d → ∀ u, (s% "xmlns", u) ∉ d.attrs) → resolve [] e = e
  | .mk t a x ks, h => by
    have h1 : ∀ p ∈ a, p.1 ≠ s% "xmlns" := fun p hp he => h _ (.refl _) p.2 (by rw [← he]; exact hp)
    have h2 : dget (s% "xmlns") a = none := by
      cases hd : dget (s% "xmlns") a with
      | none => rfl
      | some u => exact absurd rfl (h1 _ (dget_mem hd))
    have h3 : (a.filter fun p => decide (p.1 ≠ s% "xmlns")) = a :=
      List.filter_eq_self.mpr fun p hp => by simpa using h1 p hp
    have h4 := resolveKids_plain ks fun k hk d hd => h d (.kid hk hd)
    simp only [resolve, defaultNs, h2, h3, resolveTag]
    rw [h4]
    simp
termination_by structural e => e
theorem resolveKids_plain : ∀ ks : List Xml, (∀ k ∈ ks, ∀ d, Sub k d → ∀ u, (s% "xmlns", u) ∉ d.attrs) →
    resolveKids [] ks = ks
  | [], _ => rfl
  | k :: ks, h => by
    simp only [resolveKids]
    rw [resolve_plain k (h k (by simp)), resolveKids_plain ks fun k' hk => h k' (by simp [hk])]
termination_by structural ks => ks
end

theorem ser_noXmlns {L : Lib C} (hw : ∀ c, WriteOk L c) (hx : ∀ c, PrintOk L c) {P : Pt F → Bool} {o : Opts} {v : Val C F}
    (ht : typed L P v = true)
    (hn : Everywhere (fun c ns _ _ => (L.info c).special = .kml → ns ≠ []) v) {e : Xml} (h : ser L o v = .ok e) :
    ∀ d, Sub e d → ∀ u, (s% "xmlns", u) ∉ d.attrs := by
  intro d hd u hu
  obtain ⟨c, ns, nss, attrs, hin, ht', hor⟩ := ser_sub hw hd v ht h
  rcases hor with hs | ⟨it, hit, ⟨_, hm⟩ | ⟨_, hm⟩⟩
  · rcases (ser_written (hw c) ht' hs).noAttr _ hu with ⟨it, hit, _, he⟩ | ⟨hk, hns, _⟩
    · exact (hx c).xmlns it hit he.symm
    · exact hn c ns nss attrs hin hk hns
  · unfold scalarKid at hm
    split at hm
    · cases hm
    · rw [List.mem_singleton] at hm
      subst hm
      cases hu
  · unfold listKids at hm
    split at hm
    · obtain ⟨w, _, rfl⟩ := List.mem_map.mp hm
      cases w <;> cases hu
    · obtain ⟨p, hpl, rfl⟩ := List.mem_map.mp hm
      cases hu
    · cases hm

end Verif
