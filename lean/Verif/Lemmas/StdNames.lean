import Verif.Lemmas.Std
import Verif.Spec.Config

/-!
# `xml.etree.ElementTree` reads what it writes: the names
-/

set_option linter.unusedSectionVars false
set_option linter.unusedSimpArgs false

namespace Verif.Std

open Spec
open Lib (takeWhile_stop nameChar_ok legalName_chars legalName_ne node_split)

/-- A name of an element or attribute. -/
def LegalQ (q : Str) : Prop :=
  legalName q = true ∨ ∃ u l, q = '{' :: u ++ '}' :: l ∧ LegalUri u ∧ legalName l = true

theorem legalQ_tag {d : Xml} (h : LegalNode d) : LegalQ d.tag := by
  obtain ⟨n, l, ht, hn, hl⟩ := h.tag
  rcases hn with rfl | ⟨u, rfl, hu⟩
  · exact Or.inl (by rw [ht]; exact hl)
  · exact Or.inr ⟨u, l, by rw [ht]; simp, hu, hl⟩

theorem legal_colon {l : Str} (h : legalName l = true) : ':' ∉ l := fun hm =>
  (nameChar_ok (legalName_chars h _ hm)).2.2.2.2.1 rfl

theorem legal_brace {l : Str} (h : legalName l = true) : '}' ∉ l := fun hm =>
  (nameChar_ok (legalName_chars h _ hm)).2.2.2.2.2 rfl

theorem legal_open {l : Str} (h : legalName l = true) : ∀ r, l ≠ '{' :: r := by
  rintro r rfl
  have : nameChar '{' = true := legalName_chars h _ (by simp)
  exact absurd this (by decide)

theorem rsplit_tag {u l : Str} (hl : '}' ∉ l) : rsplitBrace (u ++ '}' :: l) = some (u, l) := by
  have hm : '}' ∈ u ++ '}' :: l := by simp
  have hr : (u ++ '}' :: l).reverse = l.reverse ++ '}' :: u.reverse := by simp
  have := takeWhile_stop (p := fun c => c != '}') (s := l.reverse) (c := '}') (r := u.reverse)
    (fun x hx => by
      have : x ≠ '}' := by rintro rfl; exact hl (by simpa using hx)
      simpa using this) (by decide)
  unfold rsplitBrace
  rw [if_pos hm, hr, this.1, this.2]
  simp

/-- `namespaces`, as far as it is collected. -/
structure Tidy (ns : Prefixes) : Prop where
  uris : (ns.map Prod.fst).Nodup
  prefixes : (ns.map Prod.snd).Nodup
  ok : ∀ p ∈ ns, (p.2 = [] ∨ legalName p.2 = true) ∧ p.2 ≠ s% "xml" ∧ p.2 ≠ s% "xmlns" ∧ LegalUri p.1

/-- The name `s` that is written for `q`. -/
def NameOk (ns : Prefixes) (q s : Str) : Prop :=
  (legalName q = true → s = q) ∧
  ∀ u l, q = '{' :: u ++ '}' :: l → '}' ∉ l → ∃ p, (u, p) ∈ ns ∧ s = qualify p l

/-- Where a prefix comes from: from the table, or it is made. -/
def Origin (m ns : Prefixes) (p : Str × Str) : Prop :=
  dget p.1 m = some p.2 ∨ (dget p.1 m = none ∧ ∃ k, k < ns.length ∧ p.2 = s% "ns" ++ natRepr k)

/-- What `_namespaces` has collected. -/
structure Inv (m : Prefixes) (st : Names) : Prop where
  tidy : Tidy st.namespaces
  origin : ∀ p ∈ st.namespaces, Origin m st.namespaces p
  name : ∀ q s, dget q st.qnames = some s → NameOk st.namespaces q s

/-- Nothing is forgotten. -/
structure Ext (st st' : Names) : Prop where
  ns : ∀ p ∈ st.namespaces, p ∈ st'.namespaces
  qn : ∀ q s, dget q st.qnames = some s → dget q st'.qnames = some s

theorem Ext.refl (st : Names) : Ext st st := ⟨fun _ h => h, fun _ _ h => h⟩

theorem Ext.trans {a b c : Names} (h : Ext a b) (k : Ext b c) : Ext a c :=
  ⟨fun p hp => k.ns p (h.ns p hp), fun q s hq => k.qn q s (h.qn q s hq)⟩

theorem reserved_ns (k : Nat) : reserved (s% "ns" ++ natRepr k) = true := by
  have h1 := natRepr_ne_nil k
  have h2 := natRepr_digits k
  have h3 : (natRepr k).getLast? ≠ some '\n' := by
    intro h
    have := h2 '\n' (List.mem_of_getLast? h)
    obtain ⟨d, hd⟩ := this
    rw [show digitVal '\n' = none by decide] at hd
    cases hd
  have h4 : reserved ('n' :: 's' :: natRepr k) =
      (!(if (natRepr k).getLast? = some '\n' then (natRepr k).dropLast else natRepr k).isEmpty &&
      (if (natRepr k).getLast? = some '\n' then (natRepr k).dropLast else natRepr k).all fun c => (decimalVal c).isSome) := rfl
  show reserved ('n' :: 's' :: natRepr k) = true
  rw [h4]
  simp only [h3, if_false, Bool.and_eq_true, Bool.not_eq_true', List.all_eq_true]
  refine ⟨by simpa using h1, fun c hc => ?_⟩
  obtain ⟨d, hd⟩ := h2 c hc
  simp [decimalVal_digit hd]

theorem legal_ns (k : Nat) : legalName (s% "ns" ++ natRepr k) = true := by
  show (nameStart 'n' && ('s' :: natRepr k).all nameChar) = true
  rw [show nameStart 'n' = true by decide, Bool.true_and, List.all_cons, show nameChar 's' = true by decide,
    Bool.true_and, List.all_eq_true]
  intro c hc
  obtain ⟨d, hd⟩ := natRepr_digits k c hc
  have := digitVal_range hd
  have h0 : ('0' ≤ c) ∧ (c ≤ '9') := by
    constructor
    · show '0'.toNat ≤ c.toNat
      exact this.1
    · show c.toNat ≤ '9'.toNat
      exact this.2
  simp [nameChar, h0.1, h0.2]

theorem nodup_map_inj {ns : Prefixes} (h : (ns.map Prod.snd).Nodup) {u u' p : Str} (h1 : (u, p) ∈ ns) (h2 : (u', p) ∈ ns) :
    u = u' := by
  have := injOn_of_nodup_map h h1 h2 rfl
  exact congrArg Prod.fst this

theorem prefixFor_ok {m ns : Prefixes} (hm : Usable m) (ht : Tidy ns)
    (ho : ∀ p ∈ ns, Origin m ns p) {u : Str} (hu : LegalUri u) :
    Tidy (prefixFor m ns u).2 ∧ (u, (prefixFor m ns u).1) ∈ (prefixFor m ns u).2 ∧
    (∀ p ∈ ns, p ∈ (prefixFor m ns u).2) ∧
    ∀ p ∈ (prefixFor m ns u).2, Origin m (prefixFor m ns u).2 p := by
  unfold prefixFor
  cases hd : dget u ns with
  | some p => exact ⟨ht, dget_mem hd, fun _ h => h, ho⟩
  | none =>
    have hnot : u ∉ ns.map Prod.fst := dget_eq_none.mp hd
    have key : ∀ p : Str, (dget u m = some p ∨ (dget u m = none ∧ p = s% "ns" ++ natRepr ns.length)) →
        Tidy (ns ++ [(u, p)]) ∧ p ≠ s% "xml" ∧ ∀ q ∈ ns ++ [(u, p)], Origin m (ns ++ [(u, p)]) q := by
      intro p hp
      have hgood : (p = [] ∨ legalName p = true) ∧ p ≠ s% "xml" ∧ p ≠ s% "xmlns" := by
        rcases hp with hp | ⟨_, hp⟩
        · obtain ⟨g1, g2, _, g4⟩ := hm.2 _ (dget_mem hp)
          exact ⟨g1, fun hx => hu.2.2.2.2 (g4 hx), g2⟩
        · subst hp
          refine ⟨Or.inr (legal_ns _), ?_, ?_⟩ <;> (intro h; exact absurd (List.cons.inj h).1 (by decide))
      have hfresh : p ∉ ns.map Prod.snd := by
        intro hmem
        obtain ⟨⟨u', p'⟩, hin, rfl⟩ := List.mem_map.mp hmem
        rcases hp with hp | ⟨_, hp⟩
        · rcases ho _ hin with h | ⟨_, k, _, h⟩
          · have := nodup_map_inj hm.1.2 (dget_mem h) (dget_mem hp)
            subst this
            exact hnot (List.mem_map.mpr ⟨_, hin, rfl⟩)
          · have := (hm.2 _ (dget_mem hp)).2.2.1
            simp only at h this
            rw [h, reserved_ns] at this
            cases this
        · rcases ho _ hin with h | ⟨_, k, hk, h⟩
          · have := (hm.2 _ (dget_mem h)).2.2.1
            simp only at hp this
            rw [hp, reserved_ns] at this
            cases this
          · simp only at hp h
            rw [hp] at h
            have := natRepr_inj (List.append_cancel_left h)
            omega
      refine ⟨⟨?_, ?_, ?_⟩, hgood.2.1, ?_⟩
      · rw [List.map_append]
        exact List.nodup_append.mpr ⟨ht.uris, by simp, by
          intro a ha b hb
          simp only [List.map_cons, List.map_nil, List.mem_singleton] at hb
          rintro rfl
          exact hnot (hb ▸ ha)⟩
      · rw [List.map_append]
        exact List.nodup_append.mpr ⟨ht.prefixes, by simp, by
          intro a ha b hb
          simp only [List.map_cons, List.map_nil, List.mem_singleton] at hb
          rintro rfl
          exact hfresh (hb ▸ ha)⟩
      · intro q hq
        rcases List.mem_append.mp hq with hq | hq
        · exact ht.ok q hq
        · rw [List.mem_singleton] at hq
          subst hq
          exact ⟨hgood.1, hgood.2.1, hgood.2.2, hu⟩
      · intro q hq
        rcases List.mem_append.mp hq with hq | hq
        · rcases ho q hq with h | ⟨h0, k, hk, h⟩
          · exact Or.inl h
          · exact Or.inr ⟨h0, k, by simp; omega, h⟩
        · rw [List.mem_singleton] at hq
          subst hq
          rcases hp with hp | ⟨h0, hp⟩
          · exact Or.inl hp
          · exact Or.inr ⟨h0, ns.length, by simp, hp⟩
    have fin : ∀ p : Str, (dget u m = some p ∨ (dget u m = none ∧ p = s% "ns" ++ natRepr ns.length)) →
        Tidy (if p = s% "xml" then ns else dset u p ns) ∧ (u, p) ∈ (if p = s% "xml" then ns else dset u p ns) ∧
        (∀ q ∈ ns, q ∈ (if p = s% "xml" then ns else dset u p ns)) ∧
        ∀ q ∈ (if p = s% "xml" then ns else dset u p ns), Origin m (if p = s% "xml" then ns else dset u p ns) q := by
      intro p hp
      obtain ⟨k1, k2, k3⟩ := key p hp
      rw [if_neg k2, dset_append_of_not_mem hnot]
      exact ⟨k1, by simp, fun q hq => by simp [hq], k3⟩
    cases hdm : dget u m with
    | some p => exact fin p (Or.inl hdm)
    | none => exact fin _ (Or.inr ⟨hdm, rfl⟩)

theorem NameOk.mono {ns ns' : Prefixes} (h : ∀ p ∈ ns, p ∈ ns') {q s : Str} (hn : NameOk ns q s) : NameOk ns' q s :=
  ⟨hn.1, fun u l hq hl => let ⟨p, hp, hs⟩ := hn.2 u l hq hl; ⟨p, h _ hp, hs⟩⟩

theorem note_ok {m : Prefixes} (hm : Usable m) {st : Names} (hi : Inv m st) {q : Str} (hq : LegalQ q) :
    ∃ st', note m q st = .ok st' ∧ Inv m st' ∧ Ext st st' ∧ (dget q st'.qnames).isSome = true := by
  unfold note
  cases hd : dget q st.qnames with
  | some s => exact ⟨st, by simp, hi, Ext.refl st, by simp [hd]⟩
  | none =>
    have hqn : ∀ s q' s', dget q' st.qnames = some s' → dget q' (dset q s st.qnames) = some s' := by
      intro s q' s' h
      rw [dget_dset]
      split
      · rename_i he; subst he; rw [hd] at h; cases h
      · exact h
    rcases hq with hl | ⟨u, l, rfl, hu, hl⟩
    · have hadd : addQname m q st = .ok ⟨dset q q st.qnames, st.namespaces⟩ := by
        unfold addQname
        split
        · rename_i r
          exact absurd rfl (legal_open hl r)
        · rfl
      refine ⟨⟨dset q q st.qnames, st.namespaces⟩, by simpa using hadd, ⟨hi.tidy, hi.origin, ?_⟩,
        ⟨fun _ h => h, hqn q⟩, by simp [dget_dset]⟩
      intro q' s' h
      simp only [dget_dset] at h
      split at h
      · cases h
        rename_i he
        subst he
        refine ⟨fun _ => rfl, fun u l he _ => ?_⟩
        exact absurd he (legal_open hl _)
      · exact hi.name q' s' h
    · obtain ⟨h1, h2, h3, h4⟩ := prefixFor_ok hm hi.tidy hi.origin hu
      have hadd : addQname m ('{' :: u ++ '}' :: l) st = .ok
          ⟨dset ('{' :: u ++ '}' :: l) (qualify (prefixFor m st.namespaces u).1 l) st.qnames,
            (prefixFor m st.namespaces u).2⟩ := by
        simp only [addQname, List.cons_append, rsplit_tag (legal_brace hl)]
      refine ⟨_, by simpa using hadd, ⟨h1, h4, ?_⟩, ⟨h3, hqn _⟩, by simp [dget_dset]⟩
      intro q' s' h
      simp only [dget_dset] at h
      split at h
      · cases h
        rename_i he
        subst he
        refine ⟨fun hlq => absurd rfl (legal_open hlq _), fun u' l' he hl' => ?_⟩
        have := rsplit_tag (u := u') hl'
        have he' : u ++ '}' :: l = u' ++ '}' :: l' := by simpa using he
        rw [← he', rsplit_tag (legal_brace hl)] at this
        cases this
        exact ⟨_, h2, rfl⟩
      · exact (hi.name q' s' h).mono h3

theorem noteAll_ok {m : Prefixes} (hm : Usable m) (as : List (Str × Str)) (hq : ∀ p ∈ as, LegalQ p.1) {st : Names}
    (hi : Inv m st) : ∃ st', noteAll m as st = .ok st' ∧ Inv m st' ∧ Ext st st' ∧
      ∀ p ∈ as, (dget p.1 st'.qnames).isSome = true := by
  induction as generalizing st with
  | nil => exact ⟨st, rfl, hi, Ext.refl st, by intro p hp; cases hp⟩
  | cons p as ih =>
    obtain ⟨s1, h1, h2, h3, h4⟩ := note_ok hm hi (hq p (by simp))
    obtain ⟨s2, k1, k2, k3, k4⟩ := ih (fun p' hp => hq p' (by simp [hp])) h2
    refine ⟨s2, by simp only [noteAll, h1, k1], k2, h3.trans k3, fun p' hp => ?_⟩
    rcases List.mem_cons.mp hp with rfl | hp
    · obtain ⟨s, hs⟩ := Option.isSome_iff_exists.mp h4
      simp [k3.qn _ _ hs]
    · exact k4 p' hp

/-- All names in an element are known. -/
def Known (st : Names) (e : Xml) : Prop :=
  ∀ d, Sub e d → (dget d.tag st.qnames).isSome = true ∧ ∀ p ∈ d.attrs, (dget p.1 st.qnames).isSome = true

theorem isSome_ext {st st' : Names} (h : Ext st st') {q : Str} (hq : (dget q st.qnames).isSome = true) :
    (dget q st'.qnames).isSome = true := by
  obtain ⟨s, hs⟩ := Option.isSome_iff_exists.mp hq
  simp [h.qn _ _ hs]

theorem Known.ext {st st' : Names} (h : Ext st st') {e : Xml} (hk : Known st e) : Known st' e :=
  fun d hd => ⟨isSome_ext h (hk d hd).1, fun p hp => isSome_ext h ((hk d hd).2 p hp)⟩

mutual
theorem collect_ok {m : Prefixes} (hm : Usable m) : ∀ (e : Xml), Writable e → ∀ {st : Names}, Inv m st →
    ∃ st', collect m e st = .ok st' ∧ Inv m st' ∧ Ext st st' ∧ Known st' e
  | .mk t a x ks, hw, st, hi => by
    have hn := hw _ (.refl _)
    obtain ⟨s1, h1, h2, h3, h4⟩ := note_ok hm hi (legalQ_tag hn)
    obtain ⟨s2, k1, k2, k3, k4⟩ := noteAll_ok hm a (fun p hp => Or.inl (hn.attrs p hp).1) h2
    obtain ⟨s3, l1, l2, l3, l4⟩ := collectKids_ok hm ks (fun k hk d hd => hw d (.kid hk hd)) k2
    simp only [Xml.tag] at h1 h4
    refine ⟨s3, by simp only [collect, h1, k1, l1], l2, (h3.trans k3).trans l3, ?_⟩
    intro d hd
    cases hd with
    | refl => exact ⟨isSome_ext (k3.trans l3) h4, fun p hp => isSome_ext l3 (k4 p hp)⟩
    | kid hk hd => exact l4 _ hk d hd
termination_by structural e => e
theorem collectKids_ok {m : Prefixes} (hm : Usable m) : ∀ (ks : List Xml), (∀ k ∈ ks, Writable k) → ∀ {st : Names},
    Inv m st → ∃ st', collectKids m ks st = .ok st' ∧ Inv m st' ∧ Ext st st' ∧ ∀ k ∈ ks, Known st' k
  | [], _, st, hi => ⟨st, rfl, hi, Ext.refl st, by intro k hk; cases hk⟩
  | k :: ks, hw, st, hi => by
    obtain ⟨s1, h1, h2, h3, h4⟩ := collect_ok hm k (hw k (List.mem_cons_self ..)) hi
    obtain ⟨s2, k1, k2, k3, k4⟩ := collectKids_ok hm ks (fun k' hk => hw k' (List.mem_cons_of_mem _ hk)) h2
    refine ⟨s2, by simp only [collectKids, h1, k1], k2, h3.trans k3, fun k' hk => ?_⟩
    rcases List.mem_cons.mp hk with rfl | hk
    · exact h4.ext k3
    · exact k4 k' hk
termination_by structural ks => ks
end

theorem inv_empty (m : Prefixes) : Inv m ⟨[], []⟩ :=
  ⟨⟨by simp, by simp, by intro p hp; cases hp⟩, (by intro p hp; cases hp), by intro q s h; cases h⟩

/-! ## Declarations -/

theorem insert_perm (x : Str × Str) (l : Prefixes) : (insertPrefix x l).Perm (x :: l) := by
  induction l with
  | nil => exact .refl _
  | cons y r ih =>
    unfold insertPrefix
    split
    · exact .refl _
    · exact (ih.cons y).trans (.swap x y r)

theorem sort_perm (l : Prefixes) : (sortPrefixes l).Perm l := by
  induction l with
  | nil => exact .refl _
  | cons x l ih => exact (insert_perm x _).trans (ih.cons x)

theorem splitColon_legal {k : Str} (h : legalName k = true) : splitColon k = ([], k) := by
  unfold splitColon
  rw [if_neg (legal_colon h)]

theorem splitColon_qualify {p l : Str} (hp : ':' ∉ p) : splitColon (p ++ ':' :: l) = (p, l) := by
  have := takeWhile_stop (p := fun c => c != ':') (s := p) (c := ':') (r := l)
    (fun x hx => by
      have : x ≠ ':' := by rintro rfl; exact hp hx
      simpa using this) (by decide)
  unfold splitColon
  rw [if_pos (by simp), this.1, this.2]
  rfl

theorem splitColon_decl (p : Str) : splitColon (s% "xmlns" ++ ':' :: p) = (s% "xmlns", p) :=
  splitColon_qualify (by decide)

theorem goodName_legal {k : Str} (h : legalName k = true) : goodName k = true := by
  unfold goodName
  rw [if_neg (legal_colon h)]
  exact h

theorem goodName_qualify {p l : Str} (hp : legalName p = true) (hl : legalName l = true) :
    goodName (p ++ ':' :: l) = true := by
  unfold goodName
  rw [if_pos (by simp), splitColon_qualify (legal_colon hp)]
  simp [hp, hl]

theorem declared_legal {as : List (Str × Str)} (h : ∀ p ∈ as, legalName p.1 = true) : declared as = [] := by
  unfold declared
  rw [List.filterMap_eq_nil_iff]
  intro p hp
  rw [splitColon_legal (h p hp)]
  simp

theorem attrNames_legal (env : List (Str × Str)) {as : List (Str × Str)} (h : ∀ p ∈ as, legalName p.1 = true) :
    attrNames env as = some as := by
  induction as with
  | nil => rfl
  | cons p as ih =>
    have h1 : attrName env p.1 = some p.1 := by
      unfold attrName
      rw [if_neg (legal_colon (h p (by simp)))]
    simp only [attrNames, h1, ih fun q hq => h q (by simp [hq])]

theorem isDecl_legal {as : List (Str × Str)} (h : ∀ p ∈ as, legalName p.1 = true) :
    (as.filter fun p => !isDecl p.1) = as.filter fun p => decide (p.1 ≠ s% "xmlns") := by
  refine List.filter_congr fun p hp => ?_
  unfold isDecl
  rw [splitColon_legal (h p hp)]
  simp

/-- The prefixes that are declared for `namespaces`. -/
def envOf (ns : Prefixes) : List (Str × Str) := declared (decls ns)

theorem mem_decls {ns : Prefixes} {k v : Str} : (k, v) ∈ decls ns ↔
    ∃ p, (v, p) ∈ ns ∧ k = s% "xmlns" ++ (if p = [] then [] else ':' :: p) := by
  unfold decls
  simp only [List.mem_map, (sort_perm ns).mem_iff, Prod.mk.injEq, Prod.exists]
  constructor
  · rintro ⟨u, p, h, rfl, rfl⟩
    exact ⟨p, h, rfl⟩
  · rintro ⟨p, h, rfl⟩
    exact ⟨v, p, h, rfl, rfl⟩

theorem declKey_inj {p p' : Str} (h : s% "xmlns" ++ (if p = [] then [] else ':' :: p) =
    s% "xmlns" ++ (if p' = [] then [] else ':' :: p')) : p = p' := by
  have h := List.append_cancel_left h
  by_cases hp : p = [] <;> by_cases hp' : p' = [] <;> simp_all

theorem decls_nodup {ns : Prefixes} (h : Tidy ns) : ((decls ns).map Prod.fst).Nodup := by
  have h1 : (decls ns).map Prod.fst =
      ((sortPrefixes ns).map Prod.snd).map fun p => s% "xmlns" ++ (if p = [] then [] else ':' :: p) := by
    simp [decls, List.map_map, Function.comp_def]
  rw [h1]
  have h2 : ((sortPrefixes ns).map Prod.snd).Nodup := ((sort_perm ns).map Prod.snd).nodup_iff.mpr h.prefixes
  exact List.Pairwise.map _ (fun a b hab h => hab (declKey_inj h)) h2

theorem env_eq (ns : Prefixes) : envOf ns = ((sortPrefixes ns).filter fun p => decide (p.2 ≠ [])).map fun p => (p.2, p.1) := by
  unfold envOf declared decls
  induction sortPrefixes ns with
  | nil => rfl
  | cons x l ih =>
    simp only [List.map_cons, List.filterMap_cons, List.filter_cons, ih]
    by_cases hx : x.2 = []
    · have : (splitColon (s% "xmlns" ++ [])).1 = s% "xmlns" ↔ False := by
        rw [show splitColon (s% "xmlns" ++ []) = ([], s% "xmlns") from by decide]
        simp
      simp only [hx, if_true, this, if_false]
      simp
    · simp only [hx, if_false, splitColon_decl]
      simp [hx]

theorem env_get {ns : Prefixes} (h : Tidy ns) {u p : Str} (hp : p ≠ []) (hm : (u, p) ∈ ns) : dget p (envOf ns) = some u := by
  rw [env_eq]
  refine dget_of_mem ?_ ?_
  · rw [List.map_map]
    have h2 : ((sortPrefixes ns).map Prod.snd).Nodup := ((sort_perm ns).map Prod.snd).nodup_iff.mpr h.prefixes
    exact (List.Sublist.map _ List.filter_sublist).nodup h2
  · exact List.mem_map.mpr ⟨(u, p), by simp [(sort_perm ns).mem_iff, hm, hp], rfl⟩

/-! ## Frames -/

/-- The names that are written. -/
def Named (ns : Prefixes) (nm : Str → Str) (d : Xml) : Prop :=
  NameOk ns d.tag (nm d.tag) ∧ ∀ p ∈ d.attrs, nm p.1 = p.1

theorem renamed_eq {nm : Str → Str} {a : List (Str × Str)} (h : ∀ p ∈ a, nm p.1 = p.1) : renamed nm a = a := by
  unfold renamed
  conv => rhs; rw [← List.map_id a]
  refine List.map_congr_left fun p hp => ?_
  rw [h p hp]
  rfl

theorem frame_mk {d : Str} {env : List (Str × Str)} {q : Str} {as : List (Str × Str)} {t : Str} {as' : List (Str × Str)}
    (h1 : goodName q = true) (h2 : ∀ p ∈ as, goodName p.1 = true) (h3 : (as.map Prod.fst).Nodup)
    (h4 : ∀ p ∈ declared as, goodDecl p = true) (h5 : ∀ p ∈ as, p.1 = s% "xmlns" → p.2 ∉ reservedUris)
    (h6 : (if ':' ∈ q then (dget (splitColon q).1 (declared as ++ env)).map fun u => '{' :: u ++ '}' :: (splitColon q).2
        else some (defaultNs d as ++ q)) = some t)
    (h7 : attrNames (declared as ++ env) (as.filter fun p => !isDecl p.1) = some as') :
    frame d env q as = some ⟨q, defaultNs d as, declared as ++ env, t, as', none, []⟩ := by
  unfold frame
  rw [if_pos ⟨h1, h2, h3, h4, h5⟩]
  simp only [h6, h7]

/-- The name of an element, as it is written and read. -/
theorem tag_read {ns : Prefixes} (ht : Tidy ns) {e : Xml} (hn : LegalNode e) {nm : Str → Str} (hnm : NameOk ns e.tag (nm e.tag))
    {d0 : Str} (h0 : (∀ p ∈ ns, p.2 ≠ []) ∨ (nsPart e.tag ≠ [] ∧ ∃ u, (u, []) ∈ ns ∧ d0 = '{' :: u ++ ['}'])) :
    goodName (nm e.tag) = true ∧
    (if ':' ∈ nm e.tag then (dget (splitColon (nm e.tag)).1 (envOf ns)).map fun u => '{' :: u ++ '}' :: (splitColon (nm e.tag)).2
        else some (d0 ++ nm e.tag)) = some (resolveTag d0 e.tag) := by
  rcases node_split hn with ⟨h1, h2⟩ | ⟨u, l, h1, h2, h3, h4⟩
  · rw [hnm.1 h2, if_neg (legal_colon h2), resolveTag, if_pos h1]
    exact ⟨goodName_legal h2, rfl⟩
  · obtain ⟨p, hp, hs⟩ := hnm.2 u l h4 (legal_brace h3)
    have hne : nsPart e.tag ≠ [] := by rw [h1]; simp
    rw [resolveTag, if_neg hne, hs]
    by_cases hp0 : p = []
    · subst hp0
      rcases h0 with h0 | ⟨_, u0, hu0, hd0⟩
      · exact absurd rfl (h0 _ hp)
      · have := nodup_map_inj ht.prefixes hp hu0
        subst this
        rw [qualify, if_pos rfl, if_neg (legal_colon h3), hd0, h4]
        exact ⟨goodName_legal h3, by simp⟩
    · have hpl : legalName p = true := ((ht.ok _ hp).1).resolve_left hp0
      rw [qualify, if_neg hp0, if_pos (by simp), splitColon_qualify (legal_colon hpl), env_get ht hp0 hp, h4]
      exact ⟨goodName_qualify hpl h3, rfl⟩

theorem frame_kid {ns : Prefixes} (ht : Tidy ns) {e : Xml} (hn : LegalNode e) {nm : Str → Str} (hnm : Named ns nm e) {d : Str}
    (h0 : (∀ p ∈ ns, p.2 ≠ []) ∨ (nsPart e.tag ≠ [] ∧ ∃ u, (u, []) ∈ ns ∧ defaultNs d e.attrs = '{' :: u ++ ['}'])) :
    frame d (envOf ns) (nm e.tag) (renamed nm e.attrs) =
      some ⟨nm e.tag, defaultNs d e.attrs, envOf ns, resolveTag (defaultNs d e.attrs) e.tag,
        e.attrs.filter fun p => decide (p.1 ≠ s% "xmlns"), none, []⟩ := by
  have hk : ∀ p ∈ e.attrs, legalName p.1 = true := fun p hp => (hn.attrs p hp).1
  rw [renamed_eq hnm.2]
  obtain ⟨h1, h2⟩ := tag_read ht hn hnm.1 h0
  have hd := declared_legal hk
  have := frame_mk (d := d) (env := envOf ns) (q := nm e.tag) (as := e.attrs) (t := resolveTag (defaultNs d e.attrs) e.tag)
    (as' := e.attrs.filter fun p => decide (p.1 ≠ s% "xmlns")) h1 (fun p hp => goodName_legal (hk p hp)) hn.keys
    (by rw [hd]; intro p hp; cases hp) (fun p hp hx => (hn.xmlns p.2 (by rw [← hx]; exact hp)).1.2.2.2.2)
    (by rw [hd]; exact h2)
    (by
      rw [hd, isDecl_legal hk]
      exact attrNames_legal _ fun p hp => hk p (List.mem_filter.mp hp).1)
  rw [this, hd, List.nil_append]

theorem declared_append (a b : List (Str × Str)) : declared (a ++ b) = declared a ++ declared b := by
  unfold declared
  exact List.filterMap_append

theorem isDecl_decls {ns : Prefixes} {p : Str × Str} (h : p ∈ decls ns) : isDecl p.1 = true := by
  obtain ⟨q, _, hq⟩ := mem_decls.mp h
  unfold isDecl
  rw [hq]
  by_cases h0 : q = []
  · simp [h0]
  · rw [if_neg h0, splitColon_decl]
    simp

theorem frame_root {ns : Prefixes} (ht : Tidy ns) {e : Xml} (hn : LegalNode e) {nm : Str → Str} (hnm : Named ns nm e)
    (h0 : (∀ p ∈ ns, p.2 ≠ []) ∨ (nsPart e.tag ≠ [] ∧ ∃ u, (u, []) ∈ ns)) :
    ∃ d0, frame [] [] (nm e.tag) (decls ns ++ renamed nm e.attrs) =
      some ⟨nm e.tag, d0, envOf ns, resolveTag d0 e.tag, e.attrs.filter fun p => decide (p.1 ≠ s% "xmlns"), none, []⟩ ∧
      ((∀ p ∈ ns, p.2 ≠ []) → d0 = defaultNs [] e.attrs) ∧
      (∀ u, (u, []) ∈ ns → d0 = '{' :: u ++ ['}']) := by
  have hk : ∀ p ∈ e.attrs, legalName p.1 = true := fun p hp => (hn.attrs p hp).1
  rw [renamed_eq hnm.2]
  have hA : (∀ p ∈ ns, p.2 ≠ []) → defaultNs [] (decls ns ++ e.attrs) = defaultNs [] e.attrs := by
    intro h
    have : dget (s% "xmlns") (decls ns) = none := by
      rw [dget_eq_none]
      intro hm
      obtain ⟨⟨k, v⟩, hkv, hk⟩ := List.mem_map.mp hm
      obtain ⟨p, hp, hq⟩ := mem_decls.mp hkv
      simp only at hk
      rw [hk, if_neg (h _ hp)] at hq
      simp at hq
    simp only [defaultNs, dget_append, this, Option.none_or]
  have hB : ∀ u, (u, []) ∈ ns → defaultNs [] (decls ns ++ e.attrs) = '{' :: u ++ ['}'] := by
    intro u hu
    have h1 : dget (s% "xmlns") (decls ns) = some u :=
      dget_of_mem (decls_nodup ht) (mem_decls.mpr ⟨[], hu, by simp⟩)
    have h2 : u ≠ [] := (ht.ok _ hu).2.2.2.1
    simp only [defaultNs, dget_append, h1, Option.some_or]
  have h0' : (∀ p ∈ ns, p.2 ≠ []) ∨ (nsPart e.tag ≠ [] ∧ ∃ u, (u, []) ∈ ns ∧
      defaultNs [] (decls ns ++ e.attrs) = '{' :: u ++ ['}']) :=
    h0.imp id fun ⟨h1, u, hu⟩ => ⟨h1, u, hu, hB u hu⟩
  obtain ⟨h1, h2⟩ := tag_read ht hn hnm.1 h0'
  have hd : declared (decls ns ++ e.attrs) = envOf ns := by
    rw [declared_append, declared_legal hk, List.append_nil, envOf]
  refine ⟨defaultNs [] (decls ns ++ e.attrs), ?_, hA, hB⟩
  have := frame_mk (d := []) (env := []) (q := nm e.tag) (as := decls ns ++ e.attrs)
    (t := resolveTag (defaultNs [] (decls ns ++ e.attrs)) e.tag)
    (as' := e.attrs.filter fun p => decide (p.1 ≠ s% "xmlns")) h1
    (by
      intro p hp
      rcases List.mem_append.mp hp with hp | hp
      · obtain ⟨q, hq, hk⟩ := mem_decls.mp hp
        rw [hk]
        by_cases hq0 : q = []
        · rw [if_pos hq0]; decide
        · rw [if_neg hq0]
          exact goodName_qualify (by decide) (((ht.ok _ hq).1).resolve_left hq0)
      · exact goodName_legal (hk p hp))
    (by
      rw [List.map_append]
      refine List.nodup_append.mpr ⟨decls_nodup ht, hn.keys, ?_⟩
      intro a ha b hb
      rintro rfl
      obtain ⟨⟨k, v⟩, hkv, rfl⟩ := List.mem_map.mp ha
      obtain ⟨q, hq, hkq⟩ := mem_decls.mp hkv
      obtain ⟨p, hp, hpk⟩ := List.mem_map.mp hb
      simp only at hpk hkq
      by_cases hq0 : q = []
      · rw [if_pos hq0] at hkq
        rcases h0 with h0 | ⟨h0, _⟩
        · exact h0 _ hq hq0
        · refine h0 (hn.xmlns p.2 ?_).2
          rw [← hkq.trans (List.append_nil _), ← hpk]
          exact hp
      · rw [if_neg hq0] at hkq
        have := legal_colon (hk p hp)
        rw [hpk, hkq] at this
        simp at this)
    (by
      rw [hd]
      intro p hp
      rw [env_eq] at hp
      obtain ⟨⟨u, q⟩, hq, rfl⟩ := List.mem_map.mp hp
      have hq := (List.mem_filter.mp hq).1
      rw [(sort_perm ns).mem_iff] at hq
      obtain ⟨_, g2, g3, g4⟩ := ht.ok _ hq
      simp only at g2 g3 g4
      simp only [goodDecl, Bool.and_eq_true, decide_eq_true_eq]
      exact ⟨⟨⟨g2, g3⟩, g4.2.2.2.2⟩, g4.1⟩)
    (by
      intro p hp hx
      rcases List.mem_append.mp hp with hp | hp
      · obtain ⟨q, hq, _⟩ := mem_decls.mp hp
        exact (ht.ok _ hq).2.2.2.2.2.2.2
      · exact (hn.xmlns p.2 (by rw [← hx]; exact hp)).1.2.2.2.2)
    (by rw [hd, List.append_nil]; exact h2)
    (by
      rw [List.filter_append]
      have : (decls ns).filter (fun p => !isDecl p.1) = [] := by
        rw [List.filter_eq_nil_iff]
        intro p hp
        simp [isDecl_decls hp]
      rw [this, List.nil_append, isDecl_legal hk]
      exact attrNames_legal _ fun p hp => hk p (List.mem_filter.mp hp).1)
  rw [this, hd, List.append_nil]

/-! ## The round trip -/

theorem resolveKids_map (d : Str) (ks : List Xml) : resolveKids d ks = ks.map (resolve d) := by
  induction ks with
  | nil => rfl
  | cons k ks ih => rw [resolveKids, ih]; rfl

/-- Elements with namespaces only are read as they are. -/
theorem resolve_qualified : ∀ (e : Xml), Writable e → Qualified e → ∀ d, resolve d e = e
  | .mk t a x ks, hw, hq, d => by
    have hn := hw _ (.refl _)
    have ht := hq _ (.refl _)
    simp only [Xml.tag] at ht
    have hx : ∀ p ∈ a, p.1 ≠ s% "xmlns" := fun p hp h => ht (hn.xmlns p.2 (by rw [← h]; exact hp)).2
    have hks : ∀ k ∈ ks, ∀ d, resolve d k = k := fun k hk d =>
      resolve_qualified k (fun d hd => hw d (.kid hk hd)) (fun d hd => hq d (.kid hk hd)) d
    rw [resolve, resolveTag, if_neg ht, resolveKids_map]
    congr 1
    · refine List.filter_eq_self.mpr fun p hp => ?_
      simpa using hx p hp
    · conv => rhs; rw [← List.map_id ks]
      exact List.map_congr_left fun k hk => hks k hk _

theorem nameChar_cr {c : Char} (h : nameChar c = true) : c ≠ '\r' := by
  rintro rfl
  exact absurd h (by decide)

theorem nodeOk_of {ns : Prefixes} (ht : Tidy ns) {nm : Str → Str} {e : Xml} (hw : Writable e)
    (hnm : ∀ d, Sub e d → Named ns nm d) : NodeOk nm e := by
  intro d hd
  have hn := hw d hd
  refine ⟨fun b => ?_, fun hc => ?_⟩
  rotate_left
  · cases hx : d.text with
    | none => rw [hx] at hc; cases hc
    | some s =>
      rw [hx] at hc
      rcases (hn.text s hx).2.1 _ hc with h | h | h
      · cases h
      · cases h
      · exact absurd h.1 (by decide)
  obtain ⟨h1, h2⟩ := hnm d hd
  rw [renamed_eq h2]
  have hname : ∀ l : Str, legalName l = true → l ≠ [] ∧ l.head? ≠ some '/' ∧ ∀ c ∈ l, nameChar c = true := by
    intro l hl
    refine ⟨legalName_ne hl, ?_, legalName_chars hl⟩
    intro hh
    exact (nameChar_ok (legalName_chars hl _ (List.mem_of_mem_head? (by rw [hh]; rfl)))).2.2.1 rfl
  have hkeys : ∀ p ∈ d.attrs, KeyOk p.1 := fun p hp => by
    obtain ⟨a1, a2, a3⟩ := hname _ (hn.attrs p hp).1
    exact ⟨a1, a2, fun c hc => ⟨(nameChar_ok (a3 c hc)).2.2.2.1, nameChar_cr (a3 c hc)⟩⟩
  suffices h : nm d.tag ≠ [] ∧ (nm d.tag).head? ≠ some '/' ∧ ∀ c ∈ nm d.tag, (c ≠ ' ' ∧ c ≠ '>') ∧ c ≠ '\r' from
    ⟨h.1, h.2.1, h.2.2, hkeys⟩
  rcases node_split hn with ⟨_, hl⟩ | ⟨u, l, _, _, hl, he⟩
  · rw [h1.1 hl]
    obtain ⟨a1, a2, a3⟩ := hname _ hl
    exact ⟨a1, a2, fun c hc => ⟨⟨(nameChar_ok (a3 c hc)).1, (nameChar_ok (a3 c hc)).2.1⟩, nameChar_cr (a3 c hc)⟩⟩
  · obtain ⟨p, hp, hs⟩ := h1.2 u l he (legal_brace hl)
    obtain ⟨a1, a2, a3⟩ := hname _ hl
    rw [hs]
    unfold qualify
    by_cases hp0 : p = []
    · rw [if_pos hp0]
      exact ⟨a1, a2, fun c hc => ⟨⟨(nameChar_ok (a3 c hc)).1, (nameChar_ok (a3 c hc)).2.1⟩, nameChar_cr (a3 c hc)⟩⟩
    · rw [if_neg hp0]
      obtain ⟨b1, b2, b3⟩ := hname _ (((ht.ok _ hp).1).resolve_left hp0)
      simp only at b1 b2 b3
      refine ⟨by simp, ?_, ?_⟩
      · cases p with
        | nil => exact absurd rfl hp0
        | cons c r => simpa using b2
      · intro c hc
        rcases List.mem_append.mp hc with hc | hc
        · exact ⟨⟨(nameChar_ok (b3 c hc)).1, (nameChar_ok (b3 c hc)).2.1⟩, nameChar_cr (b3 c hc)⟩
        · rcases List.mem_cons.mp hc with rfl | hc
          · decide
          · exact ⟨⟨(nameChar_ok (a3 c hc)).1, (nameChar_ok (a3 c hc)).2.1⟩, nameChar_cr (a3 c hc)⟩

theorem declKey_ok {ns : Prefixes} (ht : Tidy ns) : ∀ p ∈ decls ns, KeyOk p.1 := by
  intro p hp
  obtain ⟨q, hq, hk⟩ := mem_decls.mp hp
  rw [hk]
  refine ⟨by simp, by simp, fun c hc => ?_⟩
  rcases List.mem_append.mp hc with hc | hc
  · exact (by decide : ∀ c ∈ s% "xmlns", c ≠ '=' ∧ c ≠ '\r') c hc
  · by_cases hq0 : q = []
    · rw [if_pos hq0] at hc; cases hc
    · rw [if_neg hq0] at hc
      rcases List.mem_cons.mp hc with rfl | hc
      · decide
      · have := legalName_chars (((ht.ok _ hq).1).resolve_left hq0) c hc
        exact ⟨(nameChar_ok this).2.2.2.1, nameChar_cr this⟩

/-- What was written is read. -/
theorem build_written {ns : Prefixes} (ht : Tidy ns) {nm : Str → Str} {e : Xml} (hw : Writable e)
    (hnm : ∀ d, Sub e d → Named ns nm d) (h0 : (∀ p ∈ ns, p.2 ≠ []) ∨ Qualified e) :
    build (toks nm (decls ns) e) [] = some (resolve [] e) := by
  by_cases hA : ∀ p ∈ ns, p.2 ≠ []
  · cases e with
    | mk t a x ks =>
      have hn := hw _ (.refl _)
      have hR : Reads nm (envOf ns) (fun _ e => Writable e ∧ ∀ d, Sub e d → Named ns nm d) resolve := by
        intro d t a x ks ⟨hw, hnm⟩
        have hn := hw _ (.refl _)
        have := frame_kid ht hn (hnm _ (.refl _)) (d := d) (Or.inl hA)
        simp only [Xml.tag, Xml.attrs] at this
        refine ⟨_, _, _, this, ?_, ?_, fun s hs => (hn.text s hs).1⟩
        · rw [resolve, resolveKids_map]
        · exact fun k hk => ⟨fun d hd => hw d (.kid hk hd), fun d hd => hnm d (.kid hk hd)⟩
      obtain ⟨d0, hf, hd0, _⟩ := frame_root ht hn (hnm _ (.refl _)) (Or.inl hA)
      have hd0 := hd0 hA
      simp only [Xml.tag, Xml.attrs] at hf hd0
      rw [build_root (x := x) (ks := ks) hR hf (fun k hk => ⟨fun d hd => hw d (.kid hk hd), fun d hd => hnm d (.kid hk hd)⟩)
        (fun s hs => (hn.text s hs).1), resolve, resolveKids_map, hd0]
  · have hq : Qualified e := h0.resolve_left hA
    obtain ⟨u, hu⟩ : ∃ u, (u, []) ∈ ns := by
      obtain ⟨⟨u, p⟩, hp⟩ := Classical.not_forall.mp hA
      have hp := Classical.not_imp.mp hp
      have : p = [] := Decidable.of_not_not hp.2
      exact ⟨u, this ▸ hp.1⟩
    have hno : ∀ {d : Xml}, LegalNode d → nsPart d.tag ≠ [] → ∀ d1, defaultNs d1 d.attrs = d1 := by
      intro d hn hne d1
      have : dget (s% "xmlns") d.attrs = none := by
        cases hd : dget (s% "xmlns") d.attrs with
        | none => rfl
        | some v => exact absurd (hn.xmlns v (dget_mem hd)).2 hne
      simp only [defaultNs, this]
    cases e with
    | mk t a x ks =>
      have hn := hw _ (.refl _)
      have hR : Reads nm (envOf ns) (fun d1 e => d1 = '{' :: u ++ ['}'] ∧ Writable e ∧ Qualified e ∧
          ∀ d, Sub e d → Named ns nm d) (fun _ e => e) := by
        intro d t a x ks ⟨hd, hw, hq, hnm⟩
        have hn := hw _ (.refl _)
        have hne := hq _ (.refl _)
        have hdd := hno hn hne d
        have := frame_kid ht hn (hnm _ (.refl _)) (d := d) (Or.inr ⟨hne, u, hu, by rw [hdd, hd]⟩)
        rw [hdd] at this
        have hres := resolve_qualified _ hw hq d
        simp only [resolve, Xml.mk.injEq] at hres
        simp only [Xml.tag, Xml.attrs] at this hdd
        rw [hdd] at hres
        refine ⟨_, _, _, this, ?_, ?_, fun s hs => (hn.text s hs).1⟩
        · rw [hres.1, hres.2.1]
          simp
        · exact fun k hk => ⟨hd, fun d hd => hw d (.kid hk hd), fun d hd => hq d (.kid hk hd), fun d hd => hnm d (.kid hk hd)⟩
      obtain ⟨d0, hf, _, hd0⟩ := frame_root ht hn (hnm _ (.refl _)) (Or.inr ⟨hq _ (.refl _), u, hu⟩)
      have hd0 := hd0 u hu
      simp only [Xml.tag, Xml.attrs] at hf
      rw [build_root (x := x) (ks := ks) hR hf (fun k hk => ⟨hd0, fun d hd => hw d (.kid hk hd), fun d hd => hq d (.kid hk hd),
        fun d hd => hnm d (.kid hk hd)⟩) (fun s hs => (hn.text s hs).1), resolve_qualified _ hw hq []]
      have hres := resolve_qualified _ hw hq d0
      have hdd := hno hn (hq _ (.refl _)) d0
      simp only [Xml.attrs] at hdd
      simp only [resolve, Xml.mk.injEq] at hres
      rw [hdd] at hres
      rw [hres.1, hres.2.1]
      simp

mutual
theorem start_infix {nm : Str → Str} (ds : List (Str × Str)) : ∀ {e d : Xml}, Sub e d →
    ('<' :: nm d.tag) <:+: (toks nm ds e).flatMap Tok.print
  | .mk t a x ks, d, hs => by
    rw [toks]
    cases hs with
    | refl =>
      split
      · refine ⟨[], attrText (ds ++ renamed nm a) ++
          (s% ">" ++ (leadToks x ++ (toksKids nm ks ++ [Tok.cl (nm t)])).flatMap Tok.print), ?_⟩
        simp [Tok.print, Xml.tag]
      · refine ⟨[], attrText (ds ++ renamed nm a) ++ s% " />", ?_⟩
        simp [Tok.print, Xml.tag]
    | kid hk hd =>
      have hk : _ ∈ ks := hk
      have := start_infixKids (nm := nm) hk hd
      rw [if_pos (Or.inr (List.ne_nil_of_mem hk))]
      simp only [List.flatMap_cons, List.flatMap_append]
      obtain ⟨y, z, hyz⟩ := this
      refine ⟨(Tok.op (nm t) (ds ++ renamed nm a) false).print ++ ((leadToks x).flatMap Tok.print ++ y),
        z ++ [Tok.cl (nm t)].flatMap Tok.print, ?_⟩
      rw [← hyz]
      simp [List.append_assoc]
termination_by structural e => e
theorem start_infixKids {nm : Str → Str} : ∀ {ks : List Xml} {k d : Xml}, k ∈ ks → Sub k d →
    ('<' :: nm d.tag) <:+: (toksKids nm ks).flatMap Tok.print
  | [], _, _, hk, _ => by cases hk
  | k :: ks, k', d, hk, hd => by
    rw [toksKids, List.flatMap_append]
    rcases List.mem_cons.mp hk with h | h
    · rw [h] at hd
      exact (start_infix (e := k) [] hd).trans ⟨[], _, rfl⟩
    · exact (start_infixKids h hd).trans ⟨_, [], by rw [List.append_nil]⟩
termination_by structural ks => ks
end

/-- How elements are named in the text. -/
theorem tostring_names {m : Prefixes} (hm : Usable m) {e : Xml} (hw : Writable e) {t : Str} (ht : tostring m e = .ok t)
    {d : Xml} (hd : Sub e d) {u l : Str} (hu : d.tag = '{' :: u ++ '}' :: l) (hl : '}' ∉ l) :
    ∃ p, ('<' :: qualify p l) <:+: t ∧ (dget u m = some p ∨ (dget u m = none ∧ ∃ k, p = s% "ns" ++ natRepr k)) := by
  obtain ⟨st, h1, h2, _, h4⟩ := collect_ok hm e hw (inv_empty m)
  simp only [tostring, h1, Except.ok.injEq] at ht
  obtain ⟨s, hs⟩ := Option.isSome_iff_exists.mp (h4 d hd).1
  obtain ⟨p, hp, rfl⟩ := (h2.name _ _ hs).2 u l hu hl
  refine ⟨p, ?_, ?_⟩
  · have := start_infix (nm := nameOf st.qnames) (decls st.namespaces) hd
    rw [← write_eq, ht] at this
    simpa only [nameOf, hs, Option.getD_some] using this
  · exact (h2.origin _ hp).imp id fun ⟨h, k, _, hk⟩ => ⟨h, k, hk⟩

/-- The text begins with the name of the root. -/
theorem tostring_root {m : Prefixes} {tag : Str} {a : List (Str × Str)} {x : Option Str} {ks : List Xml} (hm : Usable m)
    (hw : Writable (.mk tag a x ks)) {t : Str} (ht : tostring m (.mk tag a x ks) = .ok t)
    {u l : Str} (hu : tag = '{' :: u ++ '}' :: l) (hl : '}' ∉ l) :
    ∃ p, ('<' :: qualify p l) <+: t ∧ (dget u m = some p ∨ (dget u m = none ∧ p = s% "ns0")) := by
  obtain ⟨st, h1, h2, _, h4⟩ := collect_ok hm _ hw (inv_empty m)
  have hadd : note m tag ⟨[], []⟩ = .ok ⟨[(tag, qualify (prefixFor m [] u).1 l)], (prefixFor m [] u).2⟩ := by
    subst hu
    simp only [note, addQname, List.cons_append, rsplit_tag hl, dget, dset]
    rfl
  have hn := hw _ (.refl _)
  have hq : dget tag st.qnames = some (qualify (prefixFor m [] u).1 l) := by
    obtain ⟨s1, k1, k2, _, _⟩ := note_ok hm (inv_empty m) (legalQ_tag hn)
    simp only [Xml.tag] at k1
    obtain ⟨s2, l1, l2, l3, _⟩ := noteAll_ok hm a (fun p hp => Or.inl (hn.attrs p hp).1) k2
    obtain ⟨s3, m1, _, m3, _⟩ := collectKids_ok hm ks (fun k hk d hd => hw d (.kid hk hd)) l2
    have : st = s3 := by
      simp only [collect, k1, l1, m1, Except.ok.injEq] at h1
      exact h1.symm
    subst this
    refine (l3.trans m3).qn _ _ ?_
    rw [hadd] at k1
    cases k1
    simp [dget]
  refine ⟨(prefixFor m [] u).1, ?_, ?_⟩
  · simp only [tostring, h1, Except.ok.injEq] at ht
    rw [← ht, write, nameOf, hq, Option.getD_some, ← List.cons_append]
    exact List.prefix_append _ _
  · simp only [prefixFor, dget]
    cases hd : dget u m with
    | some p => exact Or.inl rfl
    | none => exact Or.inr ⟨rfl, by decide⟩

/-- The text is written, and read as the element. -/
theorem tostring_read {m : Prefixes} (hm : Usable m) {e : Xml} (hw : Writable e) (hf : FitsTable m e) :
    ∃ t, tostring m e = .ok t ∧ fromstring t = .ok (resolve [] e) := by
  obtain ⟨st, h1, h2, _, h4⟩ := collect_ok hm e hw (inv_empty m)
  have hnm : ∀ d, Sub e d → Named st.namespaces (nameOf st.qnames) d := by
    intro d hd
    obtain ⟨k1, k2⟩ := h4 d hd
    obtain ⟨s, hs⟩ := Option.isSome_iff_exists.mp k1
    refine ⟨?_, fun p hp => ?_⟩
    · rw [nameOf, hs]
      exact h2.name _ _ hs
    · obtain ⟨s, hs⟩ := Option.isSome_iff_exists.mp (k2 p hp)
      rw [nameOf, hs]
      exact (h2.name _ _ hs).1 ((hw d hd).attrs p hp).1
  have h0 : (∀ p ∈ st.namespaces, p.2 ≠ []) ∨ Qualified e := by
    refine hf.imp (fun h p hp => ?_) id
    rcases h2.origin p hp with hp | ⟨_, k, _, hk⟩
    · exact h p (dget_mem hp)
    · rw [hk]; simp
  have hok := nodeOk_of h2.tidy hw hnm
  have hl : Lexed (toks (nameOf st.qnames) (decls st.namespaces) e) := by
    have := lexed_toks _ _ (declKey_ok h2.tidy) e hok [] trivial
    simpa using this
  refine ⟨write st.qnames (decls st.namespaces) e, by simp only [tostring, h1], ?_⟩
  have hlex := lex_print _ hl ((write st.qnames (decls st.namespaces) e).length + 1)
    (by have := print_length hl; rw [write_eq]; omega)
  rw [← write_eq] at hlex
  have hcr := print_cr hl
  rw [← write_eq] at hcr
  unfold fromstring
  simp only [lineEnds_eq hcr, hlex, build_written h2.tidy hw hnm h0]

theorem parseFile_text {s : Str} {r : Except FErr Xml} (h : fromstring s = r) : parseFile (.plain (utf8 s)) = r := by
  have : (utf8 s).toByteArray = s.utf8Encode := rfl
  simp only [parseFile]
  rw [this, List.utf8Decode?_utf8Encode]
  exact h

theorem indented_refl : ∀ e : Xml, Indented e e
  | .mk t a x ks => .mk (Or.inl rfl) rfl (by
      intro p hp
      have : p.1 ∈ ks ∧ p.1 = p.2 := by
        clear t a x
        induction ks with
        | nil => cases hp
        | cons k ks ih =>
          rw [List.zip_cons_cons] at hp
          rcases List.mem_cons.mp hp with rfl | hp
          · exact ⟨by simp, rfl⟩
          · exact ⟨by simp [(ih hp).1], (ih hp).2⟩
      rw [← this.2]
      exact indented_refl p.1)
termination_by e => sizeOf e
decreasing_by
  have := List.sizeOf_lt_of_mem this.1
  simp only [Xml.mk.sizeOf_spec]
  omega

/-- `xml.etree.ElementTree` reads what it writes, whatever the prefixes. -/
theorem lib_faithful {m : Prefixes} (hm : Usable m) (h0 : ∀ p ∈ m, p.2 ≠ []) : Faithful (lib m) where
  prints b e hw := by
    obtain ⟨t, h1, _⟩ := tostring_read hm hw (Or.inl h0)
    exact ⟨t, Or.inr ⟨rfl, h1⟩⟩
  reads b e t hw ht := by
    obtain ⟨t', h1, h2⟩ := tostring_read hm hw (Or.inl h0)
    have ht : t = t' := by
      rcases ht with ht | ⟨_, ht⟩
      · cases ht
      · exact Except.ok.inj (ht.symm.trans h1)
    subst ht
    exact ⟨_, indented_refl _, h2, Or.inr ⟨rfl, parseFile_text h2⟩⟩

/-! ## What is refused, and what is declared -/

/-- A name that `rsplit` does not split. -/
abbrev Broken (q : Str) : Prop := Unclosed q

/-- None of the collected names is broken. -/
def Sound (st : Names) : Prop := ∀ q, (dget q st.qnames).isSome = true → ¬ Broken q

theorem note_broken (m : Prefixes) {st : Names} (hs : Sound st) (q : Str) :
    (Broken q → note m q st = .error .valueError) ∧ (¬ Broken q → ∃ st', note m q st = .ok st' ∧ Sound st') := by
  unfold note
  by_cases hd : (dget q st.qnames).isSome = true
  · exact ⟨fun h => absurd h (hs q hd), fun _ => ⟨st, by simp [hd], hs⟩⟩
  · simp only [hd, Bool.false_eq_true, if_false]
    have key : ∀ s ns, ¬ Broken q → Sound ⟨dset q s st.qnames, ns⟩ := by
      intro s ns hq q' h
      simp only [dget_dset] at h
      split at h
      · rename_i he; subst he; exact hq
      · exact hs q' h
    constructor
    · rintro ⟨r, rfl, hr⟩
      simp [addQname, rsplitBrace, hr]
    · intro hq
      unfold addQname
      split
      · rename_i r
        have hr : '}' ∈ r := Classical.byContradiction fun h => hq ⟨r, rfl, h⟩
        unfold rsplitBrace
        rw [if_pos hr]
        exact ⟨_, rfl, key _ _ hq⟩
      · exact ⟨_, rfl, key _ _ hq⟩

theorem noteAll_broken (m : Prefixes) (as : List (Str × Str)) {st : Names} (hs : Sound st) :
    ((∃ p ∈ as, Broken p.1) → noteAll m as st = .error .valueError) ∧
    ((∀ p ∈ as, ¬ Broken p.1) → ∃ st', noteAll m as st = .ok st' ∧ Sound st') := by
  induction as generalizing st with
  | nil => exact ⟨(by rintro ⟨p, hp, _⟩; cases hp), fun _ => ⟨st, rfl, hs⟩⟩
  | cons p as ih =>
    by_cases hp : Broken p.1
    · refine ⟨fun _ => by simp only [noteAll, (note_broken m hs p.1).1 hp], fun h => absurd hp (h p (by simp))⟩
    · obtain ⟨s1, h1, h2⟩ := (note_broken m hs p.1).2 hp
      simp only [noteAll, h1]
      refine ⟨?_, fun h => (ih h2).2 fun p' hp' => h p' (by simp [hp'])⟩
      rintro ⟨p', hp', hb⟩
      rcases List.mem_cons.mp hp' with rfl | hp'
      · exact absurd hb hp
      · exact (ih h2).1 ⟨p', hp', hb⟩

/-- An element with a broken name in it. -/
def BrokenIn (e : Xml) : Prop := ∃ d, Sub e d ∧ (Broken d.tag ∨ ∃ p ∈ d.attrs, Broken p.1)

mutual
theorem collect_broken (m : Prefixes) : ∀ (e : Xml) {st : Names}, Sound st →
    (BrokenIn e → collect m e st = .error .valueError) ∧ (¬ BrokenIn e → ∃ st', collect m e st = .ok st' ∧ Sound st')
  | .mk t a x ks, st, hs => by
    by_cases ht : Broken t
    · exact ⟨fun _ => by simp only [collect, (note_broken m hs t).1 ht], fun h => absurd ⟨_, .refl _, Or.inl ht⟩ h⟩
    · obtain ⟨s1, h1, h2⟩ := (note_broken m hs t).2 ht
      simp only [collect, h1]
      by_cases ha : ∃ p ∈ a, Broken p.1
      · exact ⟨fun _ => by simp only [(noteAll_broken m a h2).1 ha], fun h => absurd ⟨_, .refl _, Or.inr ha⟩ h⟩
      · obtain ⟨s2, k1, k2⟩ := (noteAll_broken m a h2).2 fun p hp hb => ha ⟨p, hp, hb⟩
        simp only [k1]
        obtain ⟨l1, l2⟩ := collectKids_broken m ks k2
        constructor
        · rintro ⟨d, hd, hb⟩
          cases hd with
          | refl => exact absurd hb (by simp only [Xml.tag, Xml.attrs]; exact fun h => h.elim ht ha)
          | kid hk hd => exact l1 ⟨_, hk, d, hd, hb⟩
        · exact fun h => l2 fun k hk ⟨d, hd, hb⟩ => h ⟨d, .kid hk hd, hb⟩
termination_by structural e => e
theorem collectKids_broken (m : Prefixes) : ∀ (ks : List Xml) {st : Names}, Sound st →
    ((∃ k ∈ ks, BrokenIn k) → collectKids m ks st = .error .valueError) ∧
    ((∀ k ∈ ks, ¬ BrokenIn k) → ∃ st', collectKids m ks st = .ok st' ∧ Sound st')
  | [], st, hs => ⟨(by rintro ⟨p, hp, _⟩; cases hp), fun _ => ⟨st, rfl, hs⟩⟩
  | k :: ks, st, hs => by
    by_cases hk : BrokenIn k
    · exact ⟨fun _ => by simp only [collectKids, (collect_broken m k hs).1 hk],
        fun h => absurd hk (h k (List.mem_cons_self ..))⟩
    · obtain ⟨s1, h1, h2⟩ := (collect_broken m k hs).2 hk
      simp only [collectKids, h1]
      obtain ⟨l1, l2⟩ := collectKids_broken m ks h2
      refine ⟨?_, fun h => l2 fun k' hk' => h k' (List.mem_cons_of_mem _ hk')⟩
      rintro ⟨k', hk', hb⟩
      rcases List.mem_cons.mp hk' with rfl | hk'
      · exact absurd hb hk
      · exact l1 ⟨k', hk', hb⟩
termination_by structural ks => ks
end

theorem tostring_broken (m : Prefixes) (e : Xml) :
    (BrokenIn e → tostring m e = .error .valueError) ∧ (¬ BrokenIn e → ∃ t, tostring m e = .ok t) := by
  have hs : Sound ⟨[], []⟩ := by intro q h; cases h
  constructor
  · intro h
    simp only [tostring, (collect_broken m e hs).1 h]
  · intro h
    obtain ⟨st, h1, _⟩ := (collect_broken m e hs).2 h
    exact ⟨_, by simp only [tostring, h1]; rfl⟩

/-- The namespace of a name. -/
def UriOf (q u : Str) : Prop := ∃ l, q = '{' :: u ++ '}' :: l ∧ '}' ∉ l

theorem prefixFor_new {m ns : Prefixes} {u : Str} : ∀ p ∈ (prefixFor m ns u).2, p ∈ ns ∨ p.1 = u := by
  intro p hp
  unfold prefixFor at hp
  cases hd : dget u ns with
  | some q => simp only [hd] at hp; exact Or.inl hp
  | none =>
    have key : ∀ q, p ∈ (if q = s% "xml" then ns else dset u q ns) → p ∈ ns ∨ p.1 = u := ?_
    · simp only [hd] at hp
      exact key _ hp
    intro q hp
    split at hp
    · exact Or.inl hp
    · rw [dset_append_of_not_mem (dget_eq_none.mp hd)] at hp
      rcases List.mem_append.mp hp with h | h
      · exact Or.inl h
      · simp only [List.mem_singleton] at h
        exact Or.inr (by rw [h])

theorem note_new {m : Prefixes} {st st' : Names} {q : Str} (hq : LegalQ q) (h : note m q st = .ok st') :
    ∀ p ∈ st'.namespaces, p ∈ st.namespaces ∨ UriOf q p.1 := by
  intro p hp
  unfold note at h
  split at h
  · cases h; exact Or.inl hp
  · rcases hq with hl | ⟨u, l, rfl, hu, hl⟩
    · unfold addQname at h
      split at h
      · exact absurd rfl (legal_open hl _)
      · cases h; exact Or.inl hp
    · simp only [addQname, List.cons_append, rsplit_tag (legal_brace hl)] at h
      cases h
      rcases prefixFor_new p hp with h | h
      · exact Or.inl h
      · exact Or.inr ⟨l, by rw [h], legal_brace hl⟩

theorem noteAll_new {m : Prefixes} {as : List (Str × Str)} {st st' : Names} (ha : ∀ p ∈ as, legalName p.1 = true)
    (h : noteAll m as st = .ok st') : st'.namespaces = st.namespaces := by
  induction as generalizing st with
  | nil => cases h; rfl
  | cons p as ih =>
    simp only [noteAll] at h
    split at h
    · cases h
    · rename_i s1 h1
      rw [ih (fun q hq => ha q (by simp [hq])) h]
      have hl := ha p (by simp)
      unfold note at h1
      split at h1
      · cases h1; rfl
      · unfold addQname at h1
        split at h1
        · rename_i r he
          exact absurd he (legal_open hl r)
        · cases h1; rfl

mutual
theorem collect_new {m : Prefixes} : ∀ (e : Xml) {st st' : Names}, Writable e → collect m e st = .ok st' →
    ∀ p ∈ st'.namespaces, p ∈ st.namespaces ∨ ∃ d, Sub e d ∧ UriOf d.tag p.1
  | .mk t a x ks, st, st', hw, h => by
    intro p hp
    have hn := hw _ (.refl _)
    simp only [collect] at h
    split at h
    · cases h
    · rename_i s1 h1
      split at h
      · cases h
      · rename_i s2 h2
        rcases collectKids_new ks (fun k hk d hd => hw d (.kid hk hd)) h p hp with h | ⟨k, hk, d, hd, hu⟩
        · rw [noteAll_new (fun p hp => (hn.attrs p hp).1) h2] at h
          rcases note_new (legalQ_tag hn) h1 p h with h | h
          · exact Or.inl h
          · exact Or.inr ⟨_, .refl _, h⟩
        · exact Or.inr ⟨d, .kid hk hd, hu⟩
termination_by structural e => e
theorem collectKids_new {m : Prefixes} : ∀ (ks : List Xml) {st st' : Names}, (∀ k ∈ ks, Writable k) →
    collectKids m ks st = .ok st' → ∀ p ∈ st'.namespaces, p ∈ st.namespaces ∨ ∃ k ∈ ks, ∃ d, Sub k d ∧ UriOf d.tag p.1
  | [], st, st', _, h => by
    cases h
    exact fun p hp => Or.inl hp
  | k :: ks, st, st', hw, h => by
    intro p hp
    simp only [collectKids] at h
    split at h
    · cases h
    · rename_i s1 h1
      rcases collectKids_new ks (fun k' hk => hw k' (List.mem_cons_of_mem _ hk)) h p hp with h | ⟨k', hk, d, hd, hu⟩
      · rcases collect_new k (hw k (List.mem_cons_self ..)) h1 p h with h | ⟨d, hd, hu⟩
        · exact Or.inl h
        · exact Or.inr ⟨k, List.mem_cons_self .., d, hd, hu⟩
      · exact Or.inr ⟨k', List.mem_cons_of_mem _ hk, d, hd, hu⟩
termination_by structural ks => ks
end

theorem strLe_lex : ∀ {a b : Str}, strLe a b = true → a = b ∨ TextLt a b
  | [], [], _ => Or.inl rfl
  | [], _ :: _, _ => Or.inr .nil
  | _ :: _, [], h => by cases h
  | x :: a, y :: b, h => by
    simp only [strLe, Bool.or_eq_true, Bool.and_eq_true, decide_eq_true_eq] at h
    rcases h with h | ⟨rfl, h⟩
    · exact Or.inr (.rel h)
    · exact (strLe_lex h).imp (congrArg _) .cons

theorem strLe_total : ∀ {a b : Str}, strLe a b = false → TextLt b a
  | [], _, h => by simp [strLe] at h
  | _ :: _, [], _ => .nil
  | x :: a, y :: b, h => by
    simp only [strLe, Bool.or_eq_false_iff, Bool.and_eq_false_iff, decide_eq_false_iff_not] at h
    obtain ⟨h1, h2⟩ := h
    by_cases he : x = y
    · subst he
      exact .cons (strLe_total (h2.resolve_left fun h => h rfl))
    · refine .rel ?_
      have : x.toNat ≠ y.toNat := fun h => he (Char.toNat_inj.mp h)
      omega

theorem before_trans {a b c : Str} (h : TextLt a b) (k : TextLt b c) : TextLt a c := by
  induction h generalizing c with
  | nil => cases k <;> exact .nil
  | cons _ ih =>
    cases k with
    | cons k => exact .cons (ih k)
    | rel k => exact .rel k
  | rel h =>
    cases k with
    | cons k => exact .rel h
    | rel k => exact .rel (Nat.lt_trans h k)

theorem insert_sorted {x : Str × Str} {l : Prefixes} (hl : l.Pairwise fun p q => TextLt p.2 q.2)
    (hx : x.2 ∉ l.map Prod.snd) : (insertPrefix x l).Pairwise fun p q => TextLt p.2 q.2 := by
  induction l with
  | nil => simp [insertPrefix]
  | cons y r ih =>
    obtain ⟨h1, h2⟩ := List.pairwise_cons.mp hl
    unfold insertPrefix
    split
    · rename_i h
      have hxy : TextLt x.2 y.2 := (strLe_lex h).resolve_left fun h => hx (by simp [h])
      refine List.pairwise_cons.mpr ⟨fun z hz => ?_, hl⟩
      rcases List.mem_cons.mp hz with rfl | hz
      · exact hxy
      · exact before_trans hxy (h1 z hz)
    · rename_i h
      have hyx : TextLt y.2 x.2 := strLe_total (by simpa using h)
      refine List.pairwise_cons.mpr ⟨fun z hz => ?_, ih h2 fun h => hx (List.mem_cons_of_mem _ h)⟩
      rcases List.mem_cons.mp ((insert_perm x r).mem_iff.mp hz) with rfl | hz
      · exact hyx
      · exact h1 z hz

theorem sort_sorted {l : Prefixes} (h : (l.map Prod.snd).Nodup) : (sortPrefixes l).Pairwise fun p q => TextLt p.2 q.2 := by
  induction l with
  | nil => exact .nil
  | cons x l ih =>
    simp only [List.map_cons, List.nodup_cons] at h
    refine insert_sorted (ih h.2) fun hx => h.1 ?_
    have := ((sort_perm l).map Prod.snd).mem_iff.mp hx
    exact this

theorem attrText_append (a b : List (Str × Str)) : attrText (a ++ b) = attrText a ++ attrText b := by
  induction a with
  | nil => rfl
  | cons p a ih => simp [attrText, ih]

theorem tostring_declares {m : Prefixes} (hm : Usable m) {e : Xml} (hw : Writable e) {t : Str} (ht : tostring m e = .ok t) :
    ∃ name ds rest, t = '<' :: (name ++ (attrText (ds.map fun p => (s% "xmlns" ++ (if p.2 = [] then [] else ':' :: p.2), p.1)) ++ rest)) ∧
      ds.Pairwise (fun p q => TextLt p.2 q.2) ∧ (ds.map Prod.fst).Nodup ∧
      (∀ u, u ∈ ds.map Prod.fst ↔ ∃ d, Sub e d ∧ UriOf d.tag u) ∧
      ∀ p ∈ ds, Origin m ds p := by
  obtain ⟨st, h1, h2, _, h4⟩ := collect_ok hm e hw (inv_empty m)
  simp only [tostring, h1, Except.ok.injEq] at ht
  have hperm := sort_perm st.namespaces
  cases e with
  | mk tag a x ks =>
    refine ⟨nameOf st.qnames tag, sortPrefixes st.namespaces,
      attrText (a.map fun p => (nameOf st.qnames p.1, p.2)) ++ (if x.getD [] ≠ [] ∨ ks ≠ [] then
        '>' :: (cdata (x.getD []) ++ (writeKids st.qnames ks ++ '<' :: '/' :: (nameOf st.qnames tag ++ ['>'])))
      else s% " />"), ?_, sort_sorted h2.tidy.prefixes,
      (hperm.map Prod.fst).nodup_iff.mpr h2.tidy.uris, ?_, ?_⟩
    · rw [← ht, write, attrText_append]
      simp only [decls, List.append_assoc]
    · intro u
      rw [(hperm.map Prod.fst).mem_iff]
      constructor
      · intro hu
        obtain ⟨p, hp, rfl⟩ := List.mem_map.mp hu
        exact (collect_new _ hw h1 p hp).resolve_left (by intro h; cases h)
      · rintro ⟨d, hd, l, hq, hl⟩
        obtain ⟨s, hs⟩ := Option.isSome_iff_exists.mp (h4 d hd).1
        obtain ⟨p, hp, _⟩ := (h2.name _ _ hs).2 u l hq hl
        exact List.mem_map.mpr ⟨_, hp, rfl⟩
    · intro p hp
      have := h2.origin p (hperm.mem_iff.mp hp)
      unfold Origin at this ⊢
      rwa [hperm.length_eq]

end Verif.Std
