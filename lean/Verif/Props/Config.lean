import Verif.Lemmas.StdNames
import Verif.Props.XmlText
import Verif.Access

/-!
# C69, C70: configuration, prefixes, and the text of `xml.etree.ElementTree`
-/

set_option linter.unusedSectionVars false
set_option linter.unusedSimpArgs false

namespace Verif

open Spec

/-! ## C69: the table of prefixes -/

theorem mem_registerOne {p u : Str} {t : Prefixes} (h : OneToOne t) {x : Str × Str} :
    x ∈ registerOne p u t ↔ x = (u, p) ∨ (x ∈ t ∧ x.1 ≠ u ∧ x.2 ≠ p) := by
  unfold registerOne
  have hnot : u ∉ (t.filter fun q => !(decide (q.1 = u) || decide (q.2 = p))).map Prod.fst := by
    intro hm
    obtain ⟨q, hq, rfl⟩ := List.mem_map.mp hm
    simp [List.mem_filter] at hq
  rw [dset_append_of_not_mem hnot, List.mem_append, List.mem_filter, List.mem_singleton]
  simp only [Bool.not_eq_true', Bool.or_eq_false_iff, decide_eq_false_iff_not]
  exact ⟨fun h => h.symm, fun h => h.symm⟩

theorem oneToOne_registerOne {p u : Str} {t : Prefixes} (h : OneToOne t) : OneToOne (registerOne p u t) := by
  have hnot : u ∉ (t.filter fun q => !(decide (q.1 = u) || decide (q.2 = p))).map Prod.fst := by
    intro hm
    obtain ⟨q, hq, rfl⟩ := List.mem_map.mp hm
    simp [List.mem_filter] at hq
  have hnot2 : p ∉ (t.filter fun q => !(decide (q.1 = u) || decide (q.2 = p))).map Prod.snd := by
    intro hm
    obtain ⟨q, hq, rfl⟩ := List.mem_map.mp hm
    simp [List.mem_filter] at hq
  unfold registerOne
  rw [dset_append_of_not_mem hnot]
  constructor
  · rw [List.map_append]
    refine List.nodup_append.mpr ⟨(List.Sublist.map _ List.filter_sublist).nodup h.1, by simp, ?_⟩
    rintro a ha b hb rfl
    simp only [List.map_cons, List.map_nil, List.mem_singleton] at hb
    exact hnot (hb ▸ ha)
  · rw [List.map_append]
    refine List.nodup_append.mpr ⟨(List.Sublist.map _ List.filter_sublist).nodup h.2, by simp, ?_⟩
    rintro a ha b hb rfl
    simp only [List.map_cons, List.map_nil, List.mem_singleton] at hb
    exact hnot2 (hb ▸ ha)

theorem registerAll_ind (r : Registrar) (P : Prefixes → Prop) (ns : List (Str × Str))
    (hs : ∀ p ∈ ns, r.accepts p.1 p.2 = true → ∀ t, P t → P (registerOne p.1 p.2 t)) (t : Prefixes) (ht : P t) :
    P (registerAll r ns t).1 := by
  induction ns generalizing t with
  | nil => exact ht
  | cons q ns ih =>
    obtain ⟨p, u⟩ := q
    simp only [registerAll]
    by_cases ha : r.accepts p u = true
    · rw [if_pos ha]
      exact ih (fun q hq => hs q (by simp [hq])) _ (hs (p, u) (by simp) ha t ht)
    · rw [if_neg ha]
      exact ht

theorem registerAll_append {r : Registrar} {a b : List (Str × Str)} (ha : ∀ p ∈ a, r.accepts p.1 p.2 = true) (t : Prefixes) :
    registerAll r (a ++ b) t = registerAll r b (registerAll r a t).1 ∧ (registerAll r a t).2 = .ok () := by
  induction a generalizing t with
  | nil => exact ⟨rfl, rfl⟩
  | cons q a ih =>
    obtain ⟨p, u⟩ := q
    have h := ha (p, u) (by simp)
    simp only at h
    simp only [List.cons_append, registerAll, h, if_true]
    exact ih (fun q hq => ha q (by simp [hq])) _

/-- **C69.** A property of the tables of prefixes that all registrations keep, holds after all
calls. -/
theorem runCalls_ind (libs : Libraries) (P : Nat → Prefixes → Prop) (ks : List Call) (c : Config)
    (hs : ∀ i r, libs i = some r → ∀ p u, r.accepts p u = true →
      (∃ k ∈ ks, (p, u) ∈ Call.pairs k) ∨ (p, u) ∈ defaultPrefixes → ∀ t, P i t → P i (registerOne p u t))
    (h0 : ∀ i, P i (c.table i)) : ∀ i, P i ((runCalls libs ks c).table i) := by
  induction ks generalizing c with
  | nil => exact h0
  | cons k ks ih =>
    have hreg : ∀ ns : List (Str × Str), (∀ p ∈ ns, (p ∈ Call.pairs k) ∨ p ∈ defaultPrefixes) →
        ∀ i, P i ((registerNamespaces libs ns c).1.table i) := by
      intro ns hns i
      unfold registerNamespaces
      cases hl : libs c.etree with
      | none => exact h0 i
      | some r =>
        simp only
        by_cases hi : i = c.etree
        · rw [if_pos hi]
          subst hi
          exact registerAll_ind r (P c.etree) ns (fun p hp ha t ht =>
            hs _ r hl p.1 p.2 ha ((hns p hp).imp (fun h => ⟨k, by simp, h⟩) id) t ht) _ (h0 _)
        · rw [if_neg hi]
          exact h0 i
    refine ih (k.run libs c).1 (fun i r hl p u ha hp => hs i r hl p u ha (hp.imp (fun ⟨k', h1, h2⟩ => ⟨k', by simp [h1], h2⟩) id)) ?_
    cases k with
    | setEtree j => exact h0
    | register ns => exact hreg ns fun p hp => Or.inl hp
    | setDefault => exact hreg _ fun p hp => Or.inr hp

/-- **C69, one to one.** Whatever is registered, in whatever order and with whatever
libraries: in no library do two namespaces have the same prefix, or a namespace two. -/
theorem C69_one_to_one (libs : Libraries) (ks : List Call) (c : Config) (h : ∀ i, OneToOne (c.table i)) (i : Nat) :
    OneToOne ((runCalls libs ks c).table i) :=
  runCalls_ind libs (fun _ t => OneToOne t) ks c (fun _ _ _ _ _ _ _ _ ht => oneToOne_registerOne ht) h i

/-- **C69, the library in use** is the one that was set last. -/
theorem C69_current (libs : Libraries) (ks : List Call) (c : Config) : (runCalls libs ks c).etree = lastSet c.etree ks := by
  have hreg : ∀ (ns : List (Str × Str)) (c : Config), (registerNamespaces libs ns c).1.etree = c.etree := by
    intro ns c
    unfold registerNamespaces
    split <;> rfl
  induction ks generalizing c with
  | nil => rfl
  | cons k ks ih =>
    rw [runCalls, ih]
    cases k with
    | setEtree j => rfl
    | register ns => simp only [Call.run, hreg, lastSet]
    | setDefault => simp only [Call.run, setDefaultNamespaces, hreg, lastSet]

/-- **C69, other libraries.** A call changes at most the table of the library in use, and
`set_etree_implementation` changes none. -/
theorem C69_others (libs : Libraries) (k : Call) (c : Config) (i : Nat) (h : i ≠ c.etree ∨ ∃ j, k = .setEtree j) :
    ((k.run libs c).1.table i) = c.table i := by
  have hreg : ∀ ns : List (Str × Str), i ≠ c.etree → (registerNamespaces libs ns c).1.table i = c.table i := by
    intro ns hi
    unfold registerNamespaces
    split
    · rfl
    · simp only [if_neg hi]
  rcases h with h | ⟨j, rfl⟩
  · cases k with
    | setEtree j => rfl
    | register ns => exact hreg ns h
    | setDefault => exact hreg _ h
  · rfl

/-- **C69, without `register_namespace`** in the library, nothing is raised and nothing
changes. -/
theorem C69_unsupported (libs : Libraries) (ns : List (Str × Str)) (c : Config) (h : libs c.etree = none) :
    registerNamespaces libs ns c = (c, .ok ()) ∧ setDefaultNamespaces libs c = (c, .ok ()) := by
  unfold setDefaultNamespaces registerNamespaces
  rw [h]
  exact ⟨rfl, rfl⟩

theorem dget_oneToOne {t : Prefixes} (h : OneToOne t) {u p : Str} : dget u t = some p ↔ (u, p) ∈ t :=
  ⟨dget_mem, dget_of_mem h.1⟩

theorem registerAll_table {r : Registrar} {ns : List (Str × Str)} (ha : ∀ p ∈ ns, r.accepts p.1 p.2 = true)
    {t : Prefixes} (h : OneToOne t) {x : Str × Str} : (x.1 ∉ ns.map Prod.snd → x.2 ∉ ns.map Prod.fst →
      (x ∈ (registerAll r ns t).1 ↔ x ∈ t)) ∧
    (x.1 ∉ ns.map Prod.snd → x.2 ∈ ns.map Prod.fst → x ∉ (registerAll r ns t).1) := by
  induction ns generalizing t with
  | nil => exact ⟨fun _ _ => Iff.rfl, fun _ h => by cases h⟩
  | cons q ns ih =>
    obtain ⟨p, u⟩ := q
    have h1 := ha (p, u) (by simp)
    simp only at h1
    have ih := ih (fun q hq => ha q (by simp [hq])) (oneToOne_registerOne (p := p) (u := u) h)
    simp only [registerAll, h1, if_true, List.map_cons, List.mem_cons, not_or]
    constructor
    · rintro ⟨hu, hu'⟩ ⟨hp, hp'⟩
      rw [ih.1 hu' hp', mem_registerOne h]
      refine ⟨fun hx => hx.elim (fun hx => absurd (by rw [hx]) hu) fun hx => hx.1, fun hx => Or.inr ⟨hx, hu, hp⟩⟩
    · rintro ⟨hu, hu'⟩ hp
      by_cases hp' : x.2 ∈ ns.map Prod.fst
      · exact ih.2 hu' hp'
      · rw [ih.1 hu' hp', mem_registerOne h]
        rintro (hx | ⟨_, _, hx⟩)
        · exact hu (by rw [hx])
        · exact hx (hp.resolve_right hp')

/-- **C69, registering.** If all pairs are accepted, no exception is raised, and afterwards
the library in use has, for every pair that no later pair overrules, this prefix for this
URI; URIs that were not named keep their prefix, or have none if it was given away. -/
theorem C69_register (libs : Libraries) (ns : List (Str × Str)) (c : Config) {r : Registrar} (hl : libs c.etree = some r)
    (ha : ∀ p ∈ ns, r.accepts p.1 p.2 = true) (h : OneToOne (c.table c.etree)) :
    ∃ c', registerNamespaces libs ns c = (c', .ok ()) ∧ c'.etree = c.etree ∧
      (∀ a p u b, ns = a ++ (p, u) :: b → p ∉ b.map Prod.fst → u ∉ b.map Prod.snd →
        dget u (c'.table c.etree) = some p) ∧
      (∀ u, u ∉ ns.map Prod.snd → dget u (c'.table c.etree) = match dget u (c.table c.etree) with
        | some p => if p ∈ ns.map Prod.fst then none else some p
        | none => none) := by
  have hok := (registerAll_append (b := []) ha (c.table c.etree)).2
  have h' : OneToOne (registerAll r ns (c.table c.etree)).1 :=
    registerAll_ind r OneToOne ns (fun _ _ _ _ ht => oneToOne_registerOne ht) _ h
  refine ⟨{ c with table := fun i => if i = c.etree then (registerAll r ns (c.table c.etree)).1 else c.table i },
    ?_, rfl, ?_, ?_⟩
  · unfold registerNamespaces
    rw [hl]
    simp only [hok]
  · rintro a p u b rfl hp hu
    simp only [if_true]
    rw [dget_oneToOne h']
    have h1 := (registerAll_append (a := a) (b := (p, u) :: b) (fun q hq => ha q (by simp [hq])) (c.table c.etree)).1
    have h2 : OneToOne (registerAll r a (c.table c.etree)).1 :=
      registerAll_ind r OneToOne a (fun _ _ _ _ ht => oneToOne_registerOne ht) _ h
    have h3 := ha (p, u) (by simp)
    simp only at h3
    rw [h1]
    simp only [registerAll, h3, if_true]
    rw [(registerAll_table (x := (u, p)) (fun q hq => ha q (by simp [hq])) (oneToOne_registerOne h2)).1 hu hp,
      mem_registerOne h2]
    exact Or.inl rfl
  · intro u hu
    simp only [if_true]
    have key : ∀ p, dget u (registerAll r ns (c.table c.etree)).1 = some p ↔
        dget u (c.table c.etree) = some p ∧ p ∉ ns.map Prod.fst := by
      intro p
      rw [dget_oneToOne h', dget_oneToOne h]
      by_cases hp : p ∈ ns.map Prod.fst
      · have := (registerAll_table (x := (u, p)) ha h).2 hu hp
        exact ⟨fun h => absurd h this, fun h => absurd hp h.2⟩
      · rw [(registerAll_table (x := (u, p)) ha h).1 hu hp]
        exact ⟨fun h => ⟨h, hp⟩, fun h => h.1⟩
    cases hd : dget u (registerAll r ns (c.table c.etree)).1 with
    | some p =>
      obtain ⟨h1, h2⟩ := (key p).mp hd
      simp only [h1, if_neg h2]
    | none =>
      cases hd2 : dget u (c.table c.etree) with
      | none => rfl
      | some p =>
        by_cases hp : p ∈ ns.map Prod.fst
        · simp only [if_pos hp]
        · have := (key p).mpr ⟨hd2, hp⟩
          rw [hd] at this
          cases this

/-- **C69, refused.** At the first pair that the library refuses, `ValueError` is raised; the
pairs before it are registered, the pair and those after it are not. -/
theorem C69_refused (libs : Libraries) (a b : List (Str × Str)) (p u : Str) (c : Config) {r : Registrar}
    (hl : libs c.etree = some r) (ha : ∀ q ∈ a, r.accepts q.1 q.2 = true) (hr : r.accepts p u = false) :
    registerNamespaces libs (a ++ (p, u) :: b) c = ((registerNamespaces libs a c).1, .error .valueError) := by
  have h1 := (registerAll_append (b := (p, u) :: b) ha (c.table c.etree)).1
  unfold registerNamespaces
  rw [hl]
  simp only [h1, registerAll, hr, Bool.false_eq_true, if_false]

/-- **C69, defaults.** After `set_default_namespaces`, whatever was configured before, the
library in use writes `kml`, `atom` and `gx` for the three namespaces. -/
theorem C69_defaults {libs : Libraries} (hL : LawfulLibs libs) (ks : List Call) (c : Config)
    (h : ∀ i, OneToOne (c.table i)) (hr : (libs (lastSet c.etree ks)).isSome = true) :
    ∃ c', setDefaultNamespaces libs (runCalls libs ks c) = (c', .ok ()) ∧ c'.etree = lastSet c.etree ks ∧
      dget (s% "http://www.opengis.net/kml/2.2") (c'.table c'.etree) = some (s% "kml") ∧
      dget (s% "http://www.w3.org/2005/Atom") (c'.table c'.etree) = some (s% "atom") ∧
      dget (s% "http://www.google.com/kml/ext/2.2") (c'.table c'.etree) = some (s% "gx") := by
  have hc := C69_current libs ks c
  have ho := C69_one_to_one libs ks c h
  rw [← hc] at hr
  obtain ⟨r, hr⟩ := Option.isSome_iff_exists.mp hr
  have hd : defaultPrefixes = [(s% "kml", s% "http://www.opengis.net/kml/2.2"),
    (s% "atom", s% "http://www.w3.org/2005/Atom"), (s% "gx", s% "http://www.google.com/kml/ext/2.2")] := by decide +kernel
  obtain ⟨c', h1, h2, h3, _⟩ := C69_register libs defaultPrefixes (runCalls libs ks c) hr
    (by rw [hd]; exact hL _ r hr) (ho _)
  rw [hd] at h3
  refine ⟨c', h1, h2.trans hc, ?_⟩
  rw [h2]
  exact ⟨h3 [] _ _ _ rfl (by decide) (by decide +kernel),
    h3 [_] _ _ _ rfl (by decide) (by decide +kernel), h3 [_, _] _ _ _ rfl (by decide) (by decide +kernel)⟩

/-! ## C70: `xml.etree.ElementTree` -/

theorem wellKnown_usable : Usable Std.wellKnown ∧ ∀ p ∈ Std.wellKnown, p.2 ≠ [] := by
  refine ⟨⟨⟨by decide +kernel, by decide +kernel⟩, by decide +kernel⟩, by decide +kernel⟩

/-- **C70, prefixes.** After all calls that register prefixes which XML allows, the table of
`ElementTree` can be used for writing. -/
theorem C70_usable {i : Nat} {libs : Libraries} {c : Config} (hf : FreshEtree i libs c) {ks : List Call} (hg : GoodCalls ks) :
    Usable ((runCalls libs ks c).table i) ∧ ∀ p ∈ (runCalls libs ks c).table i, p.2 ≠ [] := by
  have := runCalls_ind libs (fun j t => j = i → Usable t ∧ ∀ p ∈ t, p.2 ≠ []) ks c ?_ ?_ i rfl
  · exact this
  · intro j r hl p u ha hp t ht hj
    subst hj
    obtain ⟨⟨ho, hgood⟩, hne⟩ := ht rfl
    rw [hf.1] at hl
    cases hl
    have hres : Std.reserved p = false := by simpa [Std.registrar] using ha
    have hpu : p ≠ [] ∧ legalName p = true ∧ p ≠ s% "xmlns" ∧ (p = s% "xml" → u ∈ reservedUris) := by
      rcases hp with ⟨k, hk, hp⟩ | hp
      · exact hg k hk _ hp
      · have : ∀ q ∈ defaultPrefixes, q.1 ≠ [] ∧ legalName q.1 = true ∧ q.1 ≠ s% "xmlns" ∧
            (q.1 = s% "xml" → q.2 ∈ reservedUris) := by decide +kernel
        exact this _ hp
    refine ⟨⟨oneToOne_registerOne ho, fun q hq => ?_⟩, fun q hq => ?_⟩
    · rcases (mem_registerOne ho).mp hq with rfl | ⟨hq, _⟩
      · exact ⟨Or.inr hpu.2.1, hpu.2.2.1, hres, hpu.2.2.2⟩
      · exact hgood q hq
    · rcases (mem_registerOne ho).mp hq with rfl | ⟨hq, _⟩
      · exact hpu.1
      · exact hne q hq
  · intro j hj
    subst hj
    rw [hf.2]
    exact wellKnown_usable

/-- **C70, elements.** `ElementTree` writes every element that XML can hold, and reads the
text as the same element, whatever the prefixes; with a default namespace (empty prefix) if
all elements have a namespace. -/
theorem C70_read {m : Prefixes} (hm : Usable m) {e : Xml} (hw : Writable e) (hf : FitsTable m e) :
    ∃ t, (Std.lib m).tostring e = .ok t ∧ (Std.lib m).fromstring t = .ok (resolve [] e) :=
  Std.tostring_read hm hw hf

/-- **C70, the law of C67 holds for `ElementTree`.** -/
theorem C70_faithful {m : Prefixes} (hm : Usable m) (h0 : ∀ p ∈ m, p.2 ≠ []) : Faithful (Std.lib m) :=
  Std.lib_faithful hm h0

/-- **C70, refused.** Whatever the table, an element is written unless a name in it opens a
namespace and does not close it; then `ValueError` is raised. -/
theorem C70_refused (m : Prefixes) (e : Xml) :
    ((Std.lib m).tostring e = .error .valueError ↔
      ∃ d, Sub e d ∧ (Unclosed d.tag ∨ ∃ p ∈ d.attrs, Unclosed p.1)) ∧
    ((Std.lib m).tostring e ≠ .error .valueError → ∃ t, (Std.lib m).tostring e = .ok t) := by
  obtain ⟨h1, h2⟩ := Std.tostring_broken m e
  refine ⟨⟨fun h => Classical.byContradiction fun hb => ?_, h1⟩, fun h => h2 fun hb => h (h1 hb)⟩
  obtain ⟨t, ht⟩ := h2 hb
  have h : Std.tostring m e = .error .valueError := h
  rw [ht] at h
  cases h

example : (∃ t, (Std.lib Std.wellKnown).tostring (.mk (s% "{u}a") [(s% "{v}b", s% "c")] none []) = .ok t) ∧
    (Std.lib Std.wellKnown).tostring (.mk (s% "{u}a") [(s% "{vb", s% "c")] none []) = .error .valueError := by
  refine ⟨(C70_refused _ _).2 ?_, (C70_refused _ _).1.mpr ⟨_, .refl _, Or.inr ⟨_, List.mem_cons_self .., s% "vb", rfl, by decide⟩⟩⟩
  decide +kernel

/-- **C70, declarations.** The root declares each namespace that is used by an element, and no
other, once, in the alphabetical order of the prefixes. -/
theorem C70_declares {m : Prefixes} (hm : Usable m) {e : Xml} (hw : Writable e) {t : Str} (ht : (Std.lib m).tostring e = .ok t) :
    ∃ (name : Str) (ds : Prefixes) (rest : Str), t = '<' :: name ++ Std.attrText (ds.map fun p =>
        (if p.2 = [] then s% "xmlns" else s% "xmlns:" ++ p.2, p.1)) ++ rest ∧
      ds.Pairwise (fun p q => TextLt p.2 q.2) ∧ (ds.map Prod.fst).Nodup ∧
      (∀ u, u ∈ ds.map Prod.fst ↔ ∃ d l, Sub e d ∧ d.tag = '{' :: u ++ '}' :: l ∧ '}' ∉ l) ∧
      ∀ u p, (u, p) ∈ ds → (u, p) ∈ m ∨ (u ∉ m.map Prod.fst ∧ ∃ k, k < ds.length ∧ p = s% "ns" ++ natRepr k) := by
  obtain ⟨name, ds, rest, h1, h2, h3, h4, h5⟩ := Std.tostring_declares hm hw ht
  have hk : (fun p : Str × Str => (s% "xmlns" ++ (if p.2 = [] then [] else ':' :: p.2), p.1)) =
      fun p => (if p.2 = [] then s% "xmlns" else s% "xmlns:" ++ p.2, p.1) := by
    funext p
    by_cases hp : p.2 = [] <;> simp [hp]
  refine ⟨name, ds, rest, ?_, h2, h3, fun u => ?_, fun u p hp => ?_⟩
  · rw [h1, hk]
    simp
  · rw [h4 u]
    exact ⟨fun ⟨d, hd, l, h, hl⟩ => ⟨d, l, hd, h, hl⟩, fun ⟨d, l, hd, h, hl⟩ => ⟨d, hd, l, h, hl⟩⟩
  · rcases h5 _ hp with h | ⟨h, k, hk⟩
    · exact Or.inl (dget_mem h)
    · exact Or.inr ⟨dget_eq_none.mp h, k, hk⟩

example : Writable (.mk (s% "{v}a") [(s% "b", s% "c")] none [.mk (s% "{u}a") [] (some (s% "x")) []]) ∧
    (Std.lib (dset (s% "u") (s% "b") Std.wellKnown)).tostring (.mk (s% "{v}a") [(s% "b", s% "c")] none
      [.mk (s% "{u}a") [] (some (s% "x")) []]) =
      .ok (s% "<ns0:a xmlns:b=\"u\" xmlns:ns0=\"v\" b=\"c\"><b:a>x</b:a></ns0:a>") :=
  ⟨writableB_sound (by decide +kernel), by decide +kernel⟩

/-- **C70, names.** In the text, every element of a namespace with a prefix is written with
this prefix, the others with a prefix of the form `ns0`; the text begins with the root. -/
theorem C70_names {m : Prefixes} (hm : Usable m) {e : Xml} (hw : Writable e) {t : Str} (ht : (Std.lib m).tostring e = .ok t)
    {d : Xml} (hd : Sub e d) {u l : Str} (hu : d.tag = '{' :: u ++ '}' :: l) (hl : '}' ∉ l) :
    (∀ p, (u, p) ∈ m → p ≠ [] → ('<' :: p ++ ':' :: l) <:+: t ∧ (d = e → ('<' :: p ++ ':' :: l) <+: t)) ∧
    (u ∉ m.map Prod.fst → (∃ k, ('<' :: 'n' :: 's' :: natRepr k ++ ':' :: l) <:+: t) ∧
      (d = e → (s% "<ns0:" ++ l) <+: t)) := by
  obtain ⟨p', h1, h2⟩ := Std.tostring_names hm hw ht hd hu hl
  have hroot : d = e → ∃ p, ('<' :: Std.qualify p l) <+: t ∧ (dget u m = some p ∨ (dget u m = none ∧ p = s% "ns0")) := by
    rintro rfl
    cases d
    exact Std.tostring_root hm hw ht hu hl
  constructor
  · intro p hp hp0
    have hdg : dget u m = some p := dget_of_mem hm.1.1 hp
    rw [hdg] at h2 hroot
    constructor
    · rcases h2 with h2 | ⟨h2, _⟩
      · cases h2
        simpa [Std.qualify, hp0] using h1
      · cases h2
    · intro hde
      obtain ⟨q, k1, k2⟩ := hroot hde
      rcases k2 with k2 | ⟨k2, _⟩
      · cases k2
        simpa [Std.qualify, hp0] using k1
      · cases k2
  · intro hu0
    have hdg : dget u m = none := dget_eq_none.mpr hu0
    rw [hdg] at h2 hroot
    constructor
    · rcases h2 with h2 | ⟨_, k, rfl⟩
      · cases h2
      · exact ⟨k, by simpa [Std.qualify] using h1⟩
    · intro hde
      obtain ⟨q, k1, k2⟩ := hroot hde
      rcases k2 with k2 | ⟨_, rfl⟩
      · cases k2
      · simpa [Std.qualify] using k1

variable {F : Type} [PyExt F] [LawfulExt F] [AsciiExt F]

/-- The written elements have a namespace if the objects have. -/
theorem ser_qualified {o : Opts} {v : Val Cls F} (ht : typed fastkml dim23 v = true) (hl : Everywhere (Legal fastkml) v)
    (hs : Everywhere NoneEmpty v) {e : Xml} (h : ser fastkml o v = .ok e) : Qualified e := by
  intro d hd
  obtain ⟨c, ns, nss, attrs, hin, ht', hor⟩ := ser_sub fastkml_writeOk hd v ht h
  have hL := hl c ns nss attrs hin
  obtain ⟨s1, s2, s3⟩ := hs c ns nss attrs hin
  have hform := fun id => legalNs_form (nsGet_legal hL.nss id)
  have fin : ∀ {n l : Str}, NsForm n → n ≠ [] → '}' ∉ l → d.tag = n ++ l → nsPart d.tag ≠ [] := by
    intro n l hn hn0 hl ht
    rw [ht, (nsPart_tag hn hl).1]
    exact hn0
  rcases hor with hs | ⟨it, hit, ⟨hp, hm⟩ | ⟨hp, hm⟩⟩
  · exact fin (legalNs_form hL.ns) s1 (tags_no_brace c) (written ht' hs).tag
  · have hnode := Std.legal_brace ((fastkml_printOk c).node it hit (Or.inl hp))
    unfold scalarKid at hm
    split at hm
    · cases hm
    · rw [List.mem_singleton] at hm
      subst hm
      have hch : ∀ w : Val Cls F, NsForm (childNs ns nss w) ∧ childNs ns nss w ≠ [] := by
        intro w
        unfold childNs
        split
        · split
          · exact ⟨hform _, s3⟩
          · exact ⟨hform _, s2⟩
        · exact ⟨hform _, s2⟩
        · exact ⟨legalNs_form hL.ns, s1⟩
      exact fin (hch _).1 (hch _).2 hnode rfl
  · have hnode := Std.legal_brace ((fastkml_printOk c).node it hit (Or.inr (Or.inl hp)))
    unfold listKids at hm
    split at hm
    · obtain ⟨w, _, rfl⟩ := List.mem_map.mp hm
      cases w with
      | none => exact fin (legalNs_form hL.ns) s1 hnode rfl
      | some k => exact fin (hform _) s2 hnode rfl
    · obtain ⟨p, _, rfl⟩ := List.mem_map.mp hm
      exact fin (legalNs_form hL.ns) s1 hnode rfl
    · cases hm

/-- **C70, objects.** With `ElementTree`, a canonical object in the default namespaces is the
same after `to_string` and `from_string`, even if the prefixes are changed between the two;
the prefixes may have the empty one if no namespace is empty. -/
theorem C70_roundtrip {m m' : Prefixes} (hm : Usable m) {c : Cls} {ns : Str} {nss : NsMap} {attrs : List (Str × Val Cls F)}
    (hp : (∀ p ∈ m, p.2 ≠ []) ∨ Everywhere NoneEmpty (.obj c ns nss attrs))
    (ht : typed fastkml dim23 (.obj c ns nss attrs) = true) (hl : Everywhere (Legal fastkml) (.obj c ns nss attrs))
    {M : NsMap} (hM : NsOk M) (h0 : nsGet (mergeNs M) [] = []) (h1 : nsGet (mergeNs M) (s% "kml") ≠ [])
    (hh : Everywhere (fun c ns nss _ => Home fastkml (mergeNs M) c ns nss) (.obj c ns nss attrs))
    (hcp : Everywhere (fun c ns nss attrs => Complete fastkml c ns nss attrs) (.obj c ns nss attrs))
    (hc : AllCanonical fastkml (mergeNs M) (.obj c ns nss attrs)) (pp : Bool) :
    ∃ t, toString (Std.lib m) pp ⟨none, .normal⟩ (.obj c ns nss attrs) = .ok t ∧
      ∀ strict, fromString (Std.lib m') strict c none M t = .ok (.obj c ns nss attrs) := by
  obtain ⟨e, he⟩ := C54_succeeds ht ⟨none, .normal⟩
  have hw := ser_writable fastkml_writeOk fastkml_printOk ht hl he
  obtain ⟨t, h2, h3⟩ := C70_read hm hw (hp.imp id fun h => ser_qualified ht hl h he)
  have hn : Everywhere HasNs (.obj c ns nss attrs) := by
    intro c' ns' nss' attrs' hin hk
    rw [(hh c' ns' nss' attrs' hin).2, hk]
    exact h1
  rw [resolve_ser ht hn he] at h3
  refine ⟨t, ?_, fun strict => ?_⟩
  · simp only [toString, he, Std.lib] at h2 ⊢
    exact h2
  · obtain ⟨e2, he2, h4⟩ := C01_default ht hM h0 h1 hh hcp hc strict
    rw [he] at he2
    cases he2
    exact fromString_eq (W := Std.lib m') (e := e) h3 h4

/-- **C70, histories.** The same for every history of configuration before writing that
registers prefixes which XML allows, and every history before reading. -/
theorem C70_history {i : Nat} {libs : Libraries} {c0 : Config} (hf : FreshEtree i libs c0) {ks : List Call} (hg : GoodCalls ks)
    (ks' : List Call) {c : Cls} {ns : Str} {nss : NsMap} {attrs : List (Str × Val Cls F)}
    (ht : typed fastkml dim23 (.obj c ns nss attrs) = true) (hl : Everywhere (Legal fastkml) (.obj c ns nss attrs))
    {M : NsMap} (hM : NsOk M) (h0 : nsGet (mergeNs M) [] = []) (h1 : nsGet (mergeNs M) (s% "kml") ≠ [])
    (hh : Everywhere (fun c ns nss _ => Home fastkml (mergeNs M) c ns nss) (.obj c ns nss attrs))
    (hcp : Everywhere (fun c ns nss attrs => Complete fastkml c ns nss attrs) (.obj c ns nss attrs))
    (hc : AllCanonical fastkml (mergeNs M) (.obj c ns nss attrs)) (pp : Bool) :
    ∃ t, toString (Std.lib ((runCalls libs ks c0).table i)) pp ⟨none, .normal⟩ (.obj c ns nss attrs) = .ok t ∧
      ∀ strict, fromString (Std.lib ((runCalls libs (ks ++ ks') c0).table i)) strict c none M t =
        .ok (.obj c ns nss attrs) := by
  obtain ⟨h2, h3⟩ := C70_usable hf hg
  exact C70_roundtrip h2 (Or.inl h3) ht hl hM h0 h1 hh hcp hc pp

/-! ## Cases -/

/-- Two libraries: `ElementTree` (0) and one without `register_namespace` (1). -/
def twoLibs : Libraries := fun i => if i = 0 then some Std.registrar else none

/-- At the start. -/
def start : Config := ⟨0, fun i => if i = 0 then Std.wellKnown else []⟩

theorem twoLibs_lawful : LawfulLibs twoLibs := by
  intro i r h
  unfold twoLibs at h
  split at h
  · cases h
    decide +kernel
  · cases h

theorem start_fresh : FreshEtree 0 twoLibs start := ⟨rfl, rfl⟩

/-- A history that gives the prefix `kml` away and registers another one for KML. -/
def someCalls : List Call := [.setDefault, .setEtree 1, .register [(s% "x", s% "urn:x")], .setEtree 0,
  .register [(s% "k", s% "http://www.opengis.net/kml/2.2"), (s% "kml", s% "urn:other"), (s% "ns7", s% "urn:no"),
    (s% "y", s% "urn:y")]]

theorem someCalls_good : GoodCalls someCalls := by
  intro k hk
  simp only [someCalls, List.mem_cons, List.not_mem_nil, or_false] at hk
  rcases hk with rfl | rfl | rfl | rfl | rfl <;> decide +kernel

example : OneToOne ((runCalls twoLibs someCalls start).table 0) :=
  C69_one_to_one twoLibs someCalls start (fun i => by
    unfold start
    by_cases h : i = 0
    · simp only [h, if_true]; exact wellKnown_usable.1.1
    · simp only [h, if_false]; exact ⟨by simp, by simp⟩) 0

example : (runCalls twoLibs someCalls start).table 0 = [
    (s% "http://www.w3.org/XML/1998/namespace", s% "xml"),
    (s% "http://www.w3.org/1999/xhtml", s% "html"),
    (s% "http://www.w3.org/1999/02/22-rdf-syntax-ns#", s% "rdf"),
    (s% "http://schemas.xmlsoap.org/wsdl/", s% "wsdl"),
    (s% "http://www.w3.org/2001/XMLSchema", s% "xs"),
    (s% "http://www.w3.org/2001/XMLSchema-instance", s% "xsi"),
    (s% "http://purl.org/dc/elements/1.1/", s% "dc"),
    (s% "http://www.w3.org/2005/Atom", s% "atom"),
    (s% "http://www.google.com/kml/ext/2.2", s% "gx"),
    (s% "http://www.opengis.net/kml/2.2", s% "k"),
    (s% "urn:other", s% "kml")] ∧
    lastSet 0 someCalls = 0 := by
  decide +kernel

/-- `set_default_namespaces` repairs this. -/
example : ∃ c', setDefaultNamespaces twoLibs (runCalls twoLibs someCalls start) = (c', .ok ()) ∧
    dget (s% "http://www.opengis.net/kml/2.2") (c'.table c'.etree) = some (s% "kml") := by
  obtain ⟨c', h1, _, h2, _⟩ := C69_defaults twoLibs_lawful someCalls start (fun i => by
    unfold start
    by_cases h : i = 0
    · simp only [h, if_true]; exact wellKnown_usable.1.1
    · simp only [h, if_false]; exact ⟨by simp, by simp⟩) rfl
  exact ⟨c', h1, h2⟩

/-- The document of C67, with these prefixes. -/
example (pp : Bool) : ∃ t, toString (Std.lib ((runCalls twoLibs someCalls start).table 0)) pp ⟨none, .normal⟩ textKml = .ok t ∧
    ∀ strict, fromString (Std.lib Std.wellKnown) strict .KML none [] t = .ok textKml := by
  obtain ⟨h1, h2, h3, h4, h5⟩ := C67_textKml
  rw [textKml_obj]
  obtain ⟨u1, u2⟩ := C70_usable start_fresh someCalls_good
  exact C70_roundtrip u1 (Or.inl u2) h1 h2 (by intro p hp; cases hp) (by decide) (by decide) h3 h4 h5 pp

/-- `NoneEmpty`, computed. -/
def spacedB (_ : Cls) (ns : Str) (nss : NsMap) (_ : List (Str × Val Cls F)) : Bool :=
  decide (ns ≠ []) && decide (nsGet nss (s% "kml") ≠ []) && decide (nsGet nss (s% "gx") ≠ [])

/-- The common idiom `register_namespace("", uri)`: KML as the default namespace. -/
example (pp : Bool) : ∃ t, toString (Std.lib [(s% "http://www.opengis.net/kml/2.2", [])]) pp ⟨none, .normal⟩ textKml = .ok t ∧
    ∀ strict, fromString (Std.lib Std.wellKnown) strict .KML none [] t = .ok textKml := by
  obtain ⟨h1, h2, h3, h4, h5⟩ := C67_textKml
  rw [textKml_obj]
  refine C70_roundtrip ⟨⟨by decide, by decide⟩, by decide +kernel⟩ (Or.inr ?_) h1 h2 (by intro p hp; cases hp) (by decide)
    (by decide) h3 h4 h5 pp
  refine everywhere_of (q := spacedB) (fun _ _ _ _ h => ?_) (by decide +kernel)
  simp only [spacedB, Bool.and_eq_true, decide_eq_true_eq] at h
  exact ⟨h.1.1, h.1.2, h.2⟩

/-- The text of a folder. -/
def textFolder : Val Cls Fix := newObj .Folder [(s% "id", .str (s% "f")), (s% "name", .str (s% "a & b")),
  (s% "visibility", .bool true)]

example : toString (Std.lib (runCalls twoLibs [.setDefault] start |>.table 0)) true ⟨none, .normal⟩ textFolder =
    .ok (s% "<kml:Folder xmlns:kml=\"http://www.opengis.net/kml/2.2\" id=\"f\"><kml:name>a &amp; b</kml:name><kml:visibility>1</kml:visibility></kml:Folder>") := by
  decide +kernel

/-- **C70, finding.** Prefixes belong to the XML library: after `set_etree_implementation`
alone, KML is written with the prefix `ns0` (the tests call `set_default_namespaces` too). -/
theorem C70_switch : toString (Std.lib ((runCalls (fun _ => some Std.registrar) [.setDefault, .setEtree 0]
      ⟨1, fun _ => Std.wellKnown⟩).table 0)) true ⟨none, .normal⟩ textFolder =
    .ok (s% "<ns0:Folder xmlns:ns0=\"http://www.opengis.net/kml/2.2\" id=\"f\"><ns0:name>a &amp; b</ns0:name><ns0:visibility>1</ns0:visibility></ns0:Folder>") := by
  decide +kernel

/-- **C70, finding.** `register_namespaces` accepts prefixes that XML does not allow, and the
text is not XML. -/
theorem C70_bad_prefix : toString (Std.lib ((runCalls twoLibs
      [.register [(s% "a b", s% "http://www.opengis.net/kml/2.2")]] start).table 0)) true ⟨none, .normal⟩
      (newObj .Folder []) = .ok (s% "<a b:Folder xmlns:a b=\"http://www.opengis.net/kml/2.2\" />") ∧
    (match Std.fromstring (s% "<a b:Folder xmlns:a b=\"http://www.opengis.net/kml/2.2\" />") with
      | .error e => some e
      | .ok _ => none) = some (.xml 0) := by
  decide +kernel

/-- A folder whose namespace was given with a brace. -/
def bracedFolder : Val Cls Fix := match newObj .Folder [] with
  | .obj c _ nss attrs => .obj c (s% "{http://www.opengis.net/kml/2.2") nss attrs
  | v => v

/-- **C70, finding.** A namespace that opens a brace is accepted when the object is made, and
`ValueError` is raised when it is written. -/
theorem C70_unclosed :
    (ser fastkml ⟨none, .normal⟩ bracedFolder).toOption.map Xml.tag = some (s% "{http://www.opengis.net/kml/2.2Folder") ∧
    toString (Std.lib Std.wellKnown) true ⟨none, .normal⟩ bracedFolder = .error .valueError := by
  decide +kernel

/-- A folder with a line end of Windows in its description, as in its id. -/
def windowsFolder : Val Cls Fix := newObj .Folder [(s% "id", .str (s% "a\r\nb")), (s% "description", .str (s% "a\r\nb"))]

/-- **C70, finding.** `ElementTree` does not escape carriage returns in texts (it does in
attributes), and parsers remove them: a description with line ends of Windows comes back
changed. -/
theorem C70_carriage_return : ((toString (Std.lib Std.wellKnown) true ⟨none, .normal⟩ windowsFolder).toOption.map fun t =>
      ((fromString (F := Fix) (Std.lib Std.wellKnown) true .Folder none [] t).toOption.map fun v =>
        (field (s% "id") v, field (s% "description") v))) =
    some (some (.str (s% "a\r\nb"), .str (s% "a\nb"))) ∧
    field (s% "description") windowsFolder = .str (s% "a\r\nb") := by
  decide +kernel

/-- A `KML` object without namespace, with a folder in the KML namespace. -/
def bareKml : Val Cls Fix := match newObj .KML [(s% "features", .list [newObj .Folder []])] with
  | .obj c _ nss attrs => .obj c [] nss attrs
  | v => v

/-- **C70, finding.** With the empty prefix for KML, a `KML` object without namespace that has
features in the KML namespace is written with two attributes `xmlns`, which is not XML. -/
theorem C70_two_xmlns : toString (Std.lib ((runCalls twoLibs
      [.register [([], s% "http://www.opengis.net/kml/2.2")]] start).table 0)) true ⟨none, .normal⟩ bareKml =
      .ok (s% "<kml xmlns=\"http://www.opengis.net/kml/2.2\" xmlns=\"http://www.opengis.net/kml/2.2\"><Folder /></kml>") ∧
    (match Std.fromstring (s% "<kml xmlns=\"http://www.opengis.net/kml/2.2\" xmlns=\"http://www.opengis.net/kml/2.2\"><Folder /></kml>") with
      | .error e => some e
      | .ok _ => none) = some (.xml 0) := by
  decide +kernel

end Verif
