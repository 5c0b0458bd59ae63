import Verif.Spec.Resaved
import Verif.Props.Said
import Verif.Props.Ranges

set_option linter.unusedSectionVars false
set_option linter.unusedSimpArgs false

/-!
# C74: saving a valid document gives a valid document
-/

namespace Verif

open Spec

variable {F : Type} [PyExt F] {ok : QN → Str → Prop}

/-! ## Objects come from valid elements -/

/-- The child that is read as an object of a class is valid for the type of that class. -/
theorem child_valid {N : NsMap} (hN : StdNs N) {c : Cls} {T : QN} (hT : T ∈ typesOf c) {e : Xml} (he : Valid ok T e) {k : Xml}
    (hk : k ∈ e.kids) {it : Item Cls} (hit : it ∈ fastkml.itemsOf c) (hg : it.get = .xmlSub ∨ it.get = .xmlSubList)
    {d : Cls} (hd : .cls d ∈ it.classes) {id : Str} (hid : id ∈ it.nsIds) (ht : k.tag = nsGet N id ++ (fastkml.info d).tag) :
    ∃ t, (∃ p ∈ partsOf 8 T, (elemName d, some t) ∈ p.elems) ∧ t ∈ typesOf d ∧ Valid ok t k ∧ k.tag = tagOf (elemName d) ∧
      nsGet N id = uri (xnsOf d) := by
  obtain ⟨q, t, hq, ⟨p, hp, hx⟩, hv⟩ := valid_kid he hk
  have hex := fastkml_expects hT it hit
  have hpl : place it.get = .object ∨ place it.get = .objects := by
    rcases hg with hg | hg <;> rw [hg] <;> simp [place]
  have hlook := looked_tag hN hit hid (item_tag hit hd) (ht.symm.trans hq)
  have hcl : d ∈ clsList it := by
    simp only [clsList, List.mem_filterMap]
    exact ⟨_, hd, rfl⟩
  have hex : (decide (classFor q = some d) && hasQN (typesOf d) t && !hasQN (unsupported c) q && !hasQN (rowNames c) q) = true := by
    have h : ((clsList it).all fun d => (partsOf 8 T).all fun p => p.elems.all fun x =>
      !hasQN (qnsIn it (fastkml.info d).tag) x.1 || match x.2 with
      | none => true
      | some t => decide (classFor x.1 = some d) && hasQN (typesOf d) t && !hasQN (unsupported c) x.1 &&
          !hasQN (rowNames c) x.1) = true := by
      rcases hpl with h | h <;> simp only [expects, h] at hex <;> exact hex
    have := List.all_eq_true.mp (List.all_eq_true.mp (List.all_eq_true.mp h d hcl) p hp) _ hx
    simp only [hasQN_iff.mpr hlook.1, Bool.not_true, Bool.false_or] at this
    exact this
  simp only [Bool.and_eq_true, decide_eq_true_eq, hasQN_iff] at hex
  have hname : elemName d = q := by
    have := hex.1.1.1
    unfold classFor at this
    have := List.find?_some this
    exact QN.same_iff.mp this
  subst hname
  refine ⟨t, ⟨p, hp, hx⟩, hex.1.1.2, hv, hq, ?_⟩
  have := ht.symm.trans hq
  simp only [elemName, tagOf] at this
  exact List.append_cancel_right this

/-- Every object in what is read from a valid element is read from a valid element with
its name. -/
theorem inside_valid {N : NsMap} (hm : mergeNs N = N) (hN : StdNs N) {strict : Bool} (e : Xml) : ∀ {c : Cls} {T : QN} {ns : Str}
    {v : Val Cls F}, T ∈ typesOf c → Valid ok T e → parse fastkml strict e c ns N = .ok v →
    ∀ {c' : Cls} {ns' : Str} {nss' : NsMap} {as : List (Str × Val Cls F)}, Inside (.obj c' ns' nss' as) v →
      ∃ d T', Sub e d ∧ T' ∈ typesOf c' ∧ Valid ok T' d ∧ parse fastkml strict d c' ns' N = .ok (.obj c' ns' nss' as) ∧
        ((d = e ∧ .obj c' ns' nss' as = v) ∨ (d.tag = tagOf (elemName c') ∧ ns' = uri (xnsOf c'))) := by
  induction e using Xml.ind with
  | h t a x ks ih =>
    intro c T ns v hT hv h c' ns' nss' as hi
    have h0 := h
    rw [parse_eq] at h
    simp only [parseStep] at h
    split at h
    · cases h
    · rename_i kw hkw
      obtain ⟨attrs, rfl⟩ := construct_shape h
      cases hi with
      | self => exact ⟨_, T, .refl _, hT, hv, h0, .inl ⟨rfl, rfl⟩⟩
      | attr ha hv' =>
        obtain ⟨b, w, hb, hw⟩ := construct_inside h ha hv'
        rcases getKwargs_mem hkw hb with hb | ⟨it, hit, _, hb⟩
        · cases hb
        · obtain ⟨id, hid, k, hk, d, u, ht, hd, hg, hr, hu⟩ := tryNs_inside hb hw
          simp only [kidsOf, List.mem_map] at hk
          obtain ⟨k', hk', rfl⟩ := hk
          rw [hm] at ht hr
          simp only at ht hr
          obtain ⟨t', hdecl, ht', hvk, htag, hns⟩ := child_valid hN hT hv hk' hit hg hd hid ht
          obtain ⟨d2, T2, hs, hT2, hv2, hp2, hcase⟩ := ih k' hk' ht' hvk hr hu
          refine ⟨d2, T2, .kid hk' hs, hT2, hv2, hp2, .inr ?_⟩
          rcases hcase with ⟨rfl, he⟩ | h2
          · obtain ⟨rfl, hns', _⟩ := settled_parse (show parse fastkml strict d2 d _ N = .ok (.obj c' ns' nss' as) by rw [hr, he])
            exact ⟨htag, by rw [hns', hns]⟩
          · exact h2

/-! ## Texts of simple types -/

/-- The declared types of the children of that name, in any namespace, and of the XML
attributes of that name. -/
def declaredTypes (T : QN) (n : Str) : List QN :=
  ((partsOf 8 T).flatMap fun p => p.elems.filterMap fun x => if sameStr x.1.name n then x.2 else none) ++
    (typeAttrs 8 T).filterMap fun a => if sameStr a.name n then a.type else none

theorem mem_declaredTypes {T : QN} {n : Str} {t : QN} : t ∈ declaredTypes T n ↔ Declares T n t := by
  simp only [declaredTypes, List.mem_append, List.mem_flatMap, List.mem_filterMap, Declares]
  constructor
  · rintro (⟨p, hp, ⟨q, o⟩, hx, h⟩ | ⟨a, ha, h⟩)
    · by_cases he : sameStr q.name n = true
      · rw [if_pos he] at h
        rw [sameStr_iff] at he
        obtain ⟨ns, m⟩ := q
        subst h
        subst he
        exact .inl ⟨p, hp, ns, hx⟩
      · rw [if_neg he] at h; cases h
    · by_cases he : sameStr a.name n = true
      · rw [if_pos he] at h
        exact .inr ⟨a, ha, sameStr_iff.mp he, h⟩
      · rw [if_neg he] at h; cases h
  · rintro (⟨p, hp, ns, hx⟩ | ⟨a, ha, hn, h⟩)
    · exact .inl ⟨p, hp, _, hx, by simp [QN.name, sameStr_iff.mpr rfl]⟩
    · exact .inr ⟨a, ha, by rw [if_pos (sameStr_iff.mpr hn), h]⟩

/-- The type is one whose values the item reads. -/
def typeFits (it : Item Cls) (t : QN) : Bool :=
  match it.get with
  | .subText | .attrText => decide (t ≠ .q .kml (s% "dateTimeType"))
  | .subInt | .attrInt => decide (rangeOf t = none)
  | .subFloat | .attrFloat => decide (t ∈ floatTypes)
  | .subDt => decide (t = .q .kml (s% "dateTimeType"))
  | _ => false

/-- The declared types of what an item reads fit the item, and are the same in all types
that are read as the class. -/
def sameTypes (T T' : QN) (it : Item Cls) : Bool :=
  !scalar it.get || decide (it.get ∈ [.subBool, .subEnum, .attrEnum]) ||
    (declaredTypes T it.node).all fun t => ((declaredTypes T' it.node).all fun t' => decide (t = t')) &&
      ((typeAttrs 8 T').all fun a => !sameStr a.name it.node || decide (a.type ≠ none)) && typeFits it t

set_option maxRecDepth 10000 in
theorem fastkml_sameTypes {c : Cls} {T T' : QN} (hT : T ∈ typesOf c) (hT' : T' ∈ typesOf c) :
    ∀ it ∈ fastkml.itemsOf c, sameTypes T T' it = true := by
  have key : ∀ c ∈ Cls.all, ((typesOf c).all fun T => (typesOf c).all fun T' => (fastkml.itemsOf c).all (sameTypes T T')) = true := by
    decide +kernel
  exact List.all_eq_true.mp (List.all_eq_true.mp (List.all_eq_true.mp (key c (Cls.mem_all c)) T hT) T' hT')

theorem alnum_noSpace {c : Char} (h : ('0' ≤ c ∧ c ≤ '9') ∨ ('a' ≤ c ∧ c ≤ 'z') ∨ ('A' ≤ c ∧ c ≤ 'Z')) : isSpace c = false := by
  have h : (48 ≤ c.toNat ∧ c.toNat ≤ 57) ∨ (97 ≤ c.toNat ∧ c.toNat ≤ 122) ∨ (65 ≤ c.toNat ∧ c.toNat ≤ 90) := h
  have key : ∀ n < 128, ((48 ≤ n ∧ n ≤ 57) ∨ (97 ≤ n ∧ n ≤ 122) ∨ (65 ≤ n ∧ n ≤ 90)) → isSpace (Char.ofNat n) = false := by
    decide +kernel
  have := key c.toNat (by omega) h
  rwa [Char.ofNat_toNat] at this

theorem rangeText_double {lo hi : Int} {s : Str} (h : RangeText lo hi s) : DoubleText s := by
  obtain ⟨neg, m, k, e, hu, -⟩ := h
  exact .inr ⟨neg, m, k, e, hu⟩

theorem languageText_noSpace {s : Str} (h : LanguageText s) : ∀ c ∈ s, isSpace c = false := by
  obtain ⟨a, l, rfl, -, -, ha, hl⟩ := h
  intro c hc
  rcases List.mem_append.mp hc with hc | hc
  · exact alnum_noSpace (.inr (ha c hc))
  · obtain ⟨w, hw, hc⟩ := List.mem_flatten.mp hc
    obtain ⟨w, hwl, rfl⟩ := List.mem_map.mp hw
    rcases List.mem_cons.mp hc with rfl | hc
    · decide
    · rcases (hl w hwl).2.2 c hc with h | h | h
      · exact alnum_noSpace (.inr (.inl h))
      · exact alnum_noSpace (.inr (.inr h))
      · exact alnum_noSpace (.inl h)

theorem colorText_noSpace {s : Str} (h : ColorText s) : ∀ c ∈ s, isSpace c = false := by
  intro c hc
  rcases h.2 c hc with h | h | h
  · exact alnum_noSpace (.inl h)
  · exact alnum_noSpace (.inr (.inl ⟨h.1, Nat.le_trans (show c.toNat ≤ 102 from h.2) (by decide)⟩))
  · exact alnum_noSpace (.inr (.inr ⟨h.1, Nat.le_trans (show c.toNat ≤ 70 from h.2) (by decide)⟩))

/-- A value that can be written again has the type without the white space around it. -/
theorem lexOk_strip {t : QN} {s : Str} (h : keptOk F t s) (hd : t ≠ .q .kml (s% "dateTimeType")) (hne : strip s ≠ []) :
    lexOk t (strip s) := by
  obtain ⟨h, hr⟩ := h
  by_cases hn : t ∈ [.q .xs (s% "ID"), .q .xs (s% "NCName"), .q .atom (s% "atomMediaType"), .q .atom (s% "atomEmailAddress")]
  · exact hr.name hn hne
  simp only [List.mem_cons, List.not_mem_nil, or_false, not_or] at hn
  obtain ⟨h1, h2, h3, h4⟩ := hn
  unfold lexOk at h ⊢
  cases he : enumDecl t with
  | some e =>
    rw [he] at h
    simp only at h ⊢
    rw [enum_trimmed he h]; exact h
  | none =>
    rw [he] at h
    simp only at h ⊢
    by_cases hb : t = .q .xs (s% "boolean")
    · rw [if_pos hb] at h ⊢
      exact padded_of (strip_padded h (by decide))
    rw [if_neg hb] at h ⊢
    by_cases hi : t = .q .xs (s% "int")
    · rw [if_pos hi] at h ⊢
      exact padded_of (strip_padded h fun u hu => by obtain ⟨i, hu, -⟩ := hu; exact integerText_noSpace hu)
    rw [if_neg hi] at h ⊢
    by_cases hi : t = .q .xs (s% "integer")
    · rw [if_pos hi] at h ⊢
      exact padded_of (strip_padded h fun u hu => by obtain ⟨i, hu⟩ := hu; exact integerText_noSpace hu)
    rw [if_neg hi] at h ⊢
    by_cases hf : t = .q .xs (s% "double") ∨ t = .q .xs (s% "float")
    · rw [if_pos hf] at h ⊢
      exact padded_of (strip_padded h fun u => doubleText_noSpace)
    rw [if_neg hf] at h ⊢
    cases hra : rangeOf t with
    | some r =>
      rw [hra] at h
      obtain ⟨lo, hi⟩ := r
      simp only at h ⊢
      exact padded_of (strip_padded h fun u hu => doubleText_noSpace (rangeText_double hu))
    | none =>
      rw [hra] at h
      simp only at h ⊢
      by_cases hc : t = .q .kml (s% "colorType")
      · rw [if_pos hc] at h ⊢
        exact padded_of (strip_padded h fun u => colorText_noSpace)
      rw [if_neg hc, if_neg hd, if_neg (not_or.mpr ⟨h1, h2⟩), if_neg h3, if_neg h4] at h ⊢
      by_cases hl : t = .q .atom (s% "atomLanguageTag")
      · rw [if_pos hl] at h ⊢
        rw [strip_noSpace (languageText_noSpace h)]
        exact h
      · rw [if_neg hl]; trivial

/-- What is written for a number that was read is a number of the same type. -/
theorem float_kept [KeepsRanges F] {t : QN} (ht : t ∈ floatTypes) {s u : Str} (hu : u = strip s ∨ u = s) (h : keptOk F t s) {f : F}
    (hf : PyExt.parse u = some f) : lexOk t (PyExt.repr f) := by
  have pad : ∀ lo hi, Padded (RangeText lo hi) s → Padded (RangeText lo hi) u := by
    intro lo hi hp
    rcases hu with rfl | rfl
    · exact padded_of (strip_padded hp fun u hu => doubleText_noSpace (rangeText_double hu))
    · exact hp
  by_cases hd : t = .q .xs (s% "double") ∨ t = .q .xs (s% "float")
  · exact lexOk_double hd (padded_of (rangeText_double (KeepsRanges.repr_between _ _ u f (by decide) (by decide)
      (pad _ _ (h.2.number hd)) hf)))
  · have key : ∀ t ∈ floatTypes, ¬ (t = .q .xs (s% "double") ∨ t = .q .xs (s% "float")) → ∃ r, rangeOf t = some r ∧
        -9007199254740992 ≤ r.1 ∧ r.2 ≤ 9007199254740992 := by
      have key : ∀ t ∈ floatTypes, ¬ (t = .q .xs (s% "double") ∨ t = .q .xs (s% "float")) →
        (match rangeOf t with | none => false | some r => decide (-9007199254740992 ≤ r.1 ∧ r.2 ≤ 9007199254740992)) = true := by
          decide +kernel
      intro t ht hd
      have := key t ht hd
      split at this
      · cases this
      · rename_i r hr
        exact ⟨r, hr, by simpa using this⟩
    obtain ⟨⟨lo, hi⟩, hr, hlo, hhi⟩ := key t ht hd
    rw [lexOk_range hr]
    exact padded_of (KeepsRanges.repr_between lo hi u f hlo hhi (pad _ _ ((lexOk_range hr).mp h.1)) hf)

/-- An integer that was read is in the range of its type. -/
theorem int_kept {s u : Str} (hu : u = strip s ∨ u = s) (h : lexOk (.q .xs (s% "int")) s) {i : Int} (hi : intParse u = some i) :
    -2147483648 ≤ i ∧ i ≤ 2147483647 := by
  have he : enumDecl (.q .xs (s% "int")) = none := by decide +kernel
  unfold lexOk at h
  rw [he] at h
  simp only at h
  rw [if_neg (by decide)] at h
  simp only [if_true] at h
  obtain ⟨w, v, w', rfl, hw, j, ⟨neg, sg, ds, rfl, hsg, hne, hd, hj⟩, hr⟩ := h
  have : intParse (w ++ (sg ++ ds) ++ w') = some j := by
    refine (C66_read _ _).mpr (intText_ascii ?_ ?_ hne hd ?_)
    · exact fun c hc => xmlSpaces_int (hw c (by simp [hc]))
    · exact fun c hc => xmlSpaces_int (hw c (by simp [hc]))
    · cases neg with
      | true => exact .inr ⟨hsg, by simpa using hj⟩
      | false => exact .inl ⟨hsg, by simpa using hj⟩
  have : intParse u = some j := by
    rcases hu with h | h
    · rw [h]; exact intParse_strip this
    · rw [h]; exact this
  rw [this] at hi
  cases hi
  exact hr

/-- A time that was read is written as a time. -/
theorem time_kept [LawfulExt F] {s u : Str} (hu : u = strip s ∨ u = s) (h : keptOk F (.q .kml (s% "dateTimeType")) s) {k : KmlDateTime}
    (hk : KmlDateTime.parse (PyExt.arrowGet F) u = some k) : Spec.Fine (F := F) (.q .kml (s% "dateTimeType")) (.dt k) := by
  have h2 := h.2.time rfl k (hu.elim (fun h => .inr (h ▸ hk)) (fun h => .inl (h ▸ hk)))
  obtain ⟨⟨m, r, hm, rfl⟩, _, _⟩ := time_read hk h2.1
  exact ⟨C22_valid m hm r, h2.1, h2.2⟩

/-! ## Scalars -/

/-- Types of elements with content have no texts. -/
theorem lexOk_complex {t : QN} {ty : XType} (h : typeDecl t = some ty) (s : Str) : lexOk t s := by
  have key : ∀ t ∈ [.q .xs (s% "boolean"), .q .xs (s% "int"), .q .xs (s% "integer"), .q .xs (s% "double"), .q .xs (s% "float"),
      .q .kml (s% "colorType"), .q .kml (s% "dateTimeType"), .q .xs (s% "ID"), .q .xs (s% "NCName"), .q .atom (s% "atomMediaType"),
      .q .atom (s% "atomEmailAddress"), .q .atom (s% "atomLanguageTag")] ++ rangeTypes, typeDecl t = none := by decide +kernel
  have he : enumDecl t = none := by
    cases he : enumDecl t with
    | none => rfl
    | some e => rw [enum_simple he] at h; cases h
  have hn : ∀ t' ∈ [.q .xs (s% "boolean"), .q .xs (s% "int"), .q .xs (s% "integer"), .q .xs (s% "double"), .q .xs (s% "float"),
      .q .kml (s% "colorType"), .q .kml (s% "dateTimeType"), .q .xs (s% "ID"), .q .xs (s% "NCName"), .q .atom (s% "atomMediaType"),
      .q .atom (s% "atomEmailAddress"), .q .atom (s% "atomLanguageTag")] ++ rangeTypes, t ≠ t' := by
    rintro t' ht' rfl
    rw [key _ ht'] at h
    cases h
  have hr : rangeOf t = none := by
    cases hr : rangeOf t with
    | none => rfl
    | some r => exact absurd rfl (hn t (List.mem_append_right _ (rangeOf_mem hr)))
  simp only [List.forall_mem_append, List.forall_mem_cons] at hn
  obtain ⟨⟨h1, h2, h3, h4, h5, h6, h7, h8, h9, h10, h11, h12, -⟩, -⟩ := hn
  simp [lexOk, he, hr, h1, h2, h3, h4, h5, h6, h7, h8, h9, h10, h11, h12]

/-- The text that a scalar item finds in a valid element is a value of a declared type, or
the element with the text is not of a simple type. -/
theorem text_valid {N : NsMap} (hN : StdNs N) {c : Cls} {T : QN} (hT : T ∈ typesOf c) {e : Xml} (he : Valid ok T e) {it : Item Cls}
    (hit : it ∈ fastkml.itemsOf c) (hp : place it.get = .child ∨ place it.get = .attr) {id : Str} (hid : id ∈ it.nsIds) {u : Str}
    (hu : itemText it (nsGet N id) e = some u) :
    (∃ t, Declares T it.node t ∧ ∃ s, (u = strip s ∨ u = s) ∧ u ≠ [] ∧ (ok t s ∨ ∃ ty, typeDecl t = some ty)) ∨
      (∃ a ∈ typeAttrs 8 T, a.name = it.node ∧ a.type = none) := by
  rcases hp with hp | hp
  · simp only [itemText, hp] at hu
    obtain ⟨s, hs, rfl, hne⟩ := trimmed_strip hu
    unfold childText at hs
    split at hs
    · cases hs
    · rename_i k hk
      have hmem := List.mem_of_find?_eq_some hk
      have htag : k.tag = nsGet N id ++ it.node := by simpa using List.find?_some hk
      obtain ⟨q, t, hq, ⟨p, hpp, hx⟩, hv⟩ := valid_kid he hmem
      have hlook := looked_tag hN hit hid (item_node hit) (htag.symm.trans hq)
      obtain ⟨ns, n⟩ := q
      have hn : n = it.node := hlook.2
      subst hn
      refine .inl ⟨t, .inl ⟨p, hpp, ns, hx⟩, s, .inl rfl, hne, ?_⟩
      cases hv with
      | simple hd hattr hk ht => exact .inl (ht s hs)
      | complex hd _ _ _ _ _ => exact .inr ⟨_, hd⟩
  · simp only [itemText, hp] at hu
    obtain ⟨hu, hne⟩ := given_some hu
    cases he with
    | simple hd hattr hk ht => rw [hattr] at hu; cases hu
    | complex hd hattr hreq hx hq hk =>
      obtain ⟨a, ha, hname, htx⟩ := hattr _ _ hu
      have hbr := (attr_names hT).2
      have hn : a.name = it.node := by
        rcases item_ids hit hid with ⟨x, hx⟩ | rfl
        · refine absurd ?_ (hbr a ha)
          rw [hname, (hN id).1 x hx]
          cases x <;> rfl
        · rw [hname, (hN []).2 rfl]; rfl
      cases hty : a.type with
      | some t => exact .inl ⟨t, .inr ⟨a, ha, hn, hty⟩, u, .inr rfl, hne, .inl (htx t hty)⟩
      | none => exact .inr ⟨a, ha, hn, hty⟩

theorem simple_types : ∀ t ∈ .q .xs (s% "int") :: .q .kml (s% "dateTimeType") :: floatTypes, typeDecl t = none := by decide +kernel

theorem text_kept {t : QN} {s u : Str} {b : Bool} (hu : u = strip s ∨ u = s) (h : keptOk F t s ∨ ∃ ty, typeDecl t = some ty)
    (ht : t ≠ .q .kml (s% "dateTimeType")) : Spec.Fine t (stored b (some (.str u : Val Cls F))) := by
  have key : ∀ w, w = s ∨ w = strip s → w ≠ [] → lexOk t w := by
    intro w hw hne
    rcases h with h | ⟨ty, hty⟩
    · rcases hw with rfl | rfl
      · exact h.1
      · exact lexOk_strip h ht hne
    · exact lexOk_complex hty w
  simp only [stored]
  split
  · exact key u (hu.symm)
  · split
    · trivial
    · rename_i w hw
      obtain ⟨s', h1, rfl, -⟩ := trimmed_strip hw
      cases h1
      refine key _ (.inr ?_)
      rcases hu with rfl | rfl
      · exact strip_idem s
      · rfl

theorem int_fine {t : QN} {s u : Str} (hu : u = strip s ∨ u = s) (h : keptOk F t s ∨ ∃ ty, typeDecl t = some ty)
    (ht : rangeOf t = none) {i : Int} (hi : intParse u = some i) : Spec.Fine t (.int i : Val Cls F) := by
  refine ⟨?_, fun lo hi h => by rw [ht] at h; cases h⟩
  rintro rfl
  refine int_kept hu ((h.resolve_right ?_).1) hi
  rintro ⟨ty, hty⟩
  rw [simple_types _ (by decide)] at hty
  cases hty

/-- A scalar that is read from a valid element is a value of its declared type. -/
theorem scalar_fine [LawfulExt F] [KeepsRanges F] {N : NsMap} (hm : mergeNs N = N) (hN : StdNs N) {strict : Bool} {c : Cls} {T T' : QN}
    (hT : T ∈ typesOf c) (hT' : T' ∈ typesOf c) {e : Xml} (he : Valid (keptOk F) T' e) {ns ns' : Str} {nss' : NsMap}
    {as : List (Str × Val Cls F)} (h : parse fastkml strict e c ns N = .ok (.obj c ns' nss' as)) {it : Item Cls}
    (hit : it ∈ fastkml.itemsOf c) (hs : scalar it.get = true) {t : QN} (ht : Declares T it.node t) :
    Spec.Fine t (attr it.attr as) := by
  rw [C14_scalar strict e c ns N c ns' nss' as h it hit hs, hm]
  have hsame := fastkml_sameTypes hT hT' it hit
  cases hv : (firstValue strict it N e it.nsIds : Option (Val Cls F)) with
  | none =>
    simp only [stored]
    split
    · exact fun h => absurd rfl h
    · trivial
  | some v =>
    obtain ⟨id, hid, u, hu, hd⟩ := firstValue_text hv
    by_cases hx : it.get = .subBool ∨ it.get = .subEnum ∨ it.get = .attrEnum
    · rcases hx with hg | hg | hg <;> simp only [denotes, hg, Option.map_eq_some_iff] at hd
      · obtain ⟨b, -, rfl⟩ := hd; trivial
      · split at hd
        · obtain ⟨b, -, rfl⟩ := Option.map_eq_some_iff.mp hd; trivial
        · cases hd
      · split at hd
        · obtain ⟨b, -, rfl⟩ := Option.map_eq_some_iff.mp hd; trivial
        · cases hd
    · simp only [not_or] at hx
      have hp : place it.get = .child ∨ place it.get = .attr := by
        simp only [sameTypes, Bool.or_eq_true, hs, Bool.not_true, Bool.false_eq_true, false_or, List.mem_cons, List.not_mem_nil,
          or_false, hx, decide_eq_true_eq, List.all_eq_true, Bool.and_eq_true] at hsame
        have := (hsame t (mem_declaredTypes.mpr ht)).2
        unfold typeFits at this
        split at this <;> simp_all [place]
      simp only [sameTypes, Bool.or_eq_true, hs, Bool.not_true, Bool.false_eq_true, false_or, List.mem_cons, List.not_mem_nil,
        or_false, hx, decide_eq_true_eq, List.all_eq_true, Bool.and_eq_true] at hsame
      obtain ⟨⟨heq, hno⟩, hfit⟩ := hsame t (mem_declaredTypes.mpr ht)
      rcases text_valid hN hT' he hit hp hid hu with ⟨t', hdt, s, hus, hne, hok⟩ | ⟨a, ha, hn, hty⟩
      · have := heq t' (mem_declaredTypes.mpr hdt)
        subst this
        clear heq hno hv hs hu
        unfold typeFits at hfit
        split at hfit
        case h_1 hg =>
          simp only [denotes, hg] at hd
          cases hd
          exact text_kept hus hok (by simpa using hfit)
        case h_2 hg =>
          simp only [denotes, hg] at hd
          cases hd
          exact text_kept hus hok (by simpa using hfit)
        case h_3 hg =>
          simp only [denotes, hg, Option.map_eq_some_iff] at hd
          obtain ⟨i, hi, rfl⟩ := hd
          exact int_fine hus hok (by simpa using hfit) hi
        case h_4 hg =>
          simp only [denotes, hg, Option.map_eq_some_iff] at hd
          obtain ⟨i, hi, rfl⟩ := hd
          exact int_fine hus hok (by simpa using hfit) hi
        case h_5 hg =>
          simp only [denotes, hg, Option.map_eq_some_iff] at hd
          obtain ⟨f, hf, rfl⟩ := hd
          have hfit : t ∈ floatTypes := by simpa using hfit
          refine float_kept hfit hus (hok.resolve_right ?_) hf
          rintro ⟨ty, hty⟩
          rw [simple_types t (by simp [hfit])] at hty
          cases hty
        case h_6 hg =>
          simp only [denotes, hg, Option.map_eq_some_iff] at hd
          obtain ⟨f, hf, rfl⟩ := hd
          have hfit : t ∈ floatTypes := by simpa using hfit
          refine float_kept hfit hus (hok.resolve_right ?_) hf
          rintro ⟨ty, hty⟩
          rw [simple_types t (by simp [hfit])] at hty
          cases hty
        case h_7 hg =>
          simp only [denotes, hg, Option.map_eq_some_iff] at hd
          obtain ⟨k, hk, rfl⟩ := hd
          have hfit : t = .q .kml (s% "dateTimeType") := by simpa using hfit
          have hok : keptOk F t s := hok.resolve_right (by
            rintro ⟨ty, hty⟩
            rw [simple_types t (by rw [hfit]; decide)] at hty
            cases hty)
          subst hfit
          exact time_kept hus hok hk
        case h_8 => cases hfit
      · have := hno a ha
        simp [sameStr_iff.mpr hn, hty] at this

/-! ## Lists -/

/-- The members of a list that is read from a valid element, class by class. -/
theorem members_groups {N : NsMap} (hm : mergeNs N = N) (hN : StdNs N) {strict : Bool} {c : Cls} {T : QN}
    (hT : T ∈ typesOf c) {e : Xml} (he : Valid ok T e) {ns ns' : Str} {nss' : NsMap}
    {as : List (Str × Val Cls F)} (h : parse fastkml strict e c ns N = .ok (.obj c ns' nss' as)) {it : Item Cls}
    (hit : it ∈ fastkml.itemsOf c) (hs : it.get = .xmlSubList) :
    ∃ vss : List (List (Val Cls F)), All2 (fun t vs => ∃ d, t = .cls d ∧ (∀ w ∈ vs, classOf w = some d) ∧
      vs.length ≤ (childrenNamed e (elemName d)).length) it.classes vss ∧ members it.attr as = vss.flatten := by
  obtain ⟨id, ids, vss, hids, hall, hat⟩ := C11_list strict e c ns N c ns' nss' as h it hit hs
  rw [hm] at hall
  refine ⟨vss.map fun l => l.filter (nonEmpty fastkml), ?_, ?_⟩
  · have key : ∀ cs vss, (∀ t ∈ cs, t ∈ it.classes) → All2 (fun t vs => ∃ d, t = .cls d ∧
        All2 (fun k v => parse fastkml strict k d (nsGet N id) N = .ok v)
          (e.findall (nsGet N id ++ (fastkml.info d).tag)) vs) cs vss →
        All2 (fun t (vs : List (Val Cls F)) => ∃ d, t = .cls d ∧ (∀ w ∈ vs, classOf w = some d) ∧
          vs.length ≤ (childrenNamed e (elemName d)).length) cs (vss.map fun l => l.filter (nonEmpty fastkml)) := by
      intro cs vss hcs hall
      induction hall with
      | nil => exact .nil
      | @cons t vs cs vss h1 h2 ih =>
        refine .cons ?_ (ih fun t ht => hcs t (List.mem_cons_of_mem _ ht))
        obtain ⟨d, rfl, h1⟩ := h1
        refine ⟨d, rfl, ?_, ?_⟩
        · intro w hw
          obtain ⟨k, -, hk⟩ := h1.mem_right (List.mem_filter.mp hw).1
          obtain ⟨_, as, rfl⟩ := parse_typed fastkml_readOk hk
          rfl
        · refine Nat.le_trans (List.length_filter_le _ _) ?_
          rw [← h1.length]
          cases hl : e.findall (nsGet N id ++ (fastkml.info d).tag) with
          | nil => simp
          | cons k ks =>
            have hk : k ∈ e.findall (nsGet N id ++ (fastkml.info d).tag) := by rw [hl]; simp
            simp only [Xml.findall, List.mem_filter, decide_eq_true_eq] at hk
            obtain ⟨_, _, _, _, htag, _⟩ := child_valid hN hT he hk.1 hit (.inr hs) (hcs _ List.mem_cons_self)
              (show id ∈ it.nsIds by rw [hids]; simp) hk.2
            rw [← hl, childrenNamed, ← htag, hk.2]
            exact Nat.le_refl _
    exact key _ _ (fun _ h => h) hall
  · have : ∀ vss : List (List (Val Cls F)), vss.flatten.filter (nonEmpty fastkml) =
        (vss.map fun l => l.filter (nonEmpty fastkml)).flatten := by
      intro vss
      rw [List.filter_flatten]
    unfold members
    rw [hat]
    simp only
    split
    · rw [List.filter_filter, ← this]
      simp
    · exact this vss

/-- At most one of the children has a name that is declared at most once. -/
theorem few_children {T : QN} {e : Xml} (he : Valid ok T e) {l : List QN} (ho : once l (partsOf 8 T) = true) :
    (e.kids.filter fun k => l.any fun q => decide (k.tag = tagOf q)).length ≤ 1 := by
  cases he with
  | simple hs ha hk ht => rw [hk]; simp
  | complex hs ha hr hx hq hk =>
    refine Nat.le_trans ?_ (accepts_once hq ho)
    clear hq ho hx hr ha hs
    generalize e.kids = ks at hk
    rename_i qs
    clear e
    induction qs generalizing ks with
    | nil => cases hk; simp
    | cons x qs ih =>
      cases hk with
      | @cons q t k qs ks hn hv h =>
        have := ih ks h
        have hiff : (l.any fun q => decide (k.tag = tagOf q)) = hasQN l q := by
          rw [Bool.eq_iff_iff, hasQN_iff, List.any_eq_true]
          constructor
          · rintro ⟨q', hq', ht⟩
            rw [decide_eq_true_eq, hn] at ht
            rw [tagOf_inj ht]
            exact hq'
          · intro h
            exact ⟨q, h, by simpa using hn⟩
        simp only [List.filter_cons, hiff]
        split
        · simp only [List.length_cons]; omega
        · exact this

theorem filter_disjoint {α : Type} {p q : α → Bool} (h : ∀ x, p x = true → q x = false) (l : List α) :
    (l.filter fun x => p x || q x).length = (l.filter p).length + (l.filter q).length := by
  induction l with
  | nil => rfl
  | cons x l ih =>
    simp only [List.filter_cons]
    cases hp : p x with
    | true => simp only [h x hp, Bool.true_or, if_true, List.length_cons, Bool.false_eq_true, if_false]; omega
    | false =>
      cases hq : q x with
      | true => simp only [Bool.false_or, if_true, List.length_cons, Bool.false_eq_true, if_false]; omega
      | false => simpa using ih

/-- The class among the types. -/
def PyType.cls? : PyType Cls → Option Cls
  | .cls d => some d
  | _ => none

theorem group_sublist {d : Cls} {vs : List (Val Cls F)} (h : ∀ w ∈ vs, classOf w = some d) (hl : vs.length ≤ 1) :
    (vs.filterMap classOf).Sublist [d] := by
  match vs, hl with
  | [], _ => simp
  | [w], _ => simp [h w (by simp)]

theorem groups_sublist {cs : List (PyType Cls)} {vss : List (List (Val Cls F))}
    (h : All2 (fun t vs => ∃ d, t = .cls d ∧ (∀ w ∈ vs, classOf w = some d) ∧ vs.length ≤ 1) cs vss) :
    (vss.flatten.filterMap classOf).Sublist (cs.filterMap PyType.cls?) := by
  induction h with
  | nil => simp
  | cons h1 h2 ih =>
    obtain ⟨d, rfl, h1, hl⟩ := h1
    simp only [List.flatten_cons, List.filterMap_append]
    rw [List.filterMap_cons_some (show PyType.cls? (.cls d) = some d from rfl)]
    exact (group_sublist h1 hl).append ih

theorem groups_length {e : Xml} {cs : List (PyType Cls)} {vss : List (List (Val Cls F))}
    (h : All2 (fun t vs => ∃ d, t = .cls d ∧ vs.length ≤ (childrenNamed e (elemName d)).length) cs vss)
    (hn : ((cs.filterMap PyType.cls?).map elemName).Nodup) :
    vss.flatten.length ≤ (e.kids.filter fun k => ((cs.filterMap PyType.cls?).map elemName).any fun q =>
      decide (k.tag = tagOf q)).length := by
  induction h with
  | nil => simp
  | cons h1 h2 ih =>
    obtain ⟨d, rfl, hl⟩ := h1
    rw [List.filterMap_cons_some (show PyType.cls? (.cls d) = some d from rfl)] at hn ⊢
    simp only [List.map_cons, List.nodup_cons] at hn
    simp only [List.map_cons, List.any_cons, List.flatten_cons, List.length_append]
    rw [filter_disjoint]
    · have := ih hn.2
      unfold childrenNamed at hl
      omega
    · intro k hk
      rw [decide_eq_true_eq] at hk
      rw [List.any_eq_false]
      intro q hq hc
      rw [decide_eq_true_eq, hk] at hc
      exact hn.1 (tagOf_inj hc ▸ hq)

theorem listed_items : (∃ it ∈ fastkml.itemsOf .Style, it.get = .xmlSubList ∧ it.attr = s% "styles" ∧
      it.classes = [.cls .IconStyle, .cls .LabelStyle, .cls .LineStyle, .cls .PolyStyle, .cls .BalloonStyle]) ∧
    (∃ it ∈ fastkml.itemsOf .ExtendedData, it.get = .xmlSubList ∧ it.attr = s% "elements" ∧
      it.classes = [.cls .Data, .cls .SchemaData]) ∧
    (∃ it ∈ fastkml.itemsOf .Document, it.get = .xmlSubList ∧ it.attr = s% "features" ∧
      it.classes.all (fun t => match t with
        | .cls d => decide (∃ n ∈ memberNames, elemName d = .q .kml n)
        | _ => true) = true) ∧
    (∃ it ∈ fastkml.itemsOf .Document, it.get = .xmlSubList ∧ it.attr = s% "schemata" ∧ it.classes = [.cls .Schema]) ∧
    (∃ it ∈ fastkml.itemsOf .KML, it.get = .xmlSubList ∧ it.attr = s% "features" ∧
      ∃ cs ∈ [it.classes.dropLast], it.classes = cs ++ [.cls .NetworkLinkControl] ∧ cs.all (fun t => match t with
        | .cls d => decide (d ≠ .NetworkLinkControl ∧ ∃ n ∈ memberNames, n ≠ s% "NetworkLinkControl" ∧ elemName d = .q .kml n)
        | _ => true) = true ∧ ((cs.filterMap PyType.cls?).map elemName).Nodup ∧
        ∀ T ∈ typesOf .KML, once ((cs.filterMap PyType.cls?).map elemName) (partsOf 8 T) = true) ∧
    (∀ T ∈ typesOf .KML, once [elemName .NetworkLinkControl] (partsOf 8 T) = true) ∧
    ∀ T ∈ typesOf .Style, ∀ d ∈ [Cls.IconStyle, .LabelStyle, .LineStyle, .PolyStyle, .BalloonStyle],
      once [elemName d] (partsOf 8 T) = true := by decide +kernel

theorem named_once {T : QN} {e : Xml} (he : Valid ok T e) {q : QN} (ho : once [q] (partsOf 8 T) = true) :
    (childrenNamed e q).length ≤ 1 := by
  have := few_children he ho
  simpa [childrenNamed] using this

theorem all2_append {α β : Type} {R : α → β → Prop} {l l' : List α} {m : List β} (h : All2 R (l ++ l') m) :
    ∃ m1 m2, m = m1 ++ m2 ∧ All2 R l m1 ∧ All2 R l' m2 := by
  induction l generalizing m with
  | nil => exact ⟨[], m, rfl, .nil, h⟩
  | cons a l ih =>
    cases h with
    | cons h1 h2 =>
      obtain ⟨m1, m2, rfl, h3, h4⟩ := ih h2
      exact ⟨_ :: m1, m2, rfl, .cons h1 h3, h4⟩

/-- What is read from a valid element with orderly content is in the order of the schemas. -/
theorem in_order {N : NsMap} (hm : mergeNs N = N) (hN : StdNs N) {strict : Bool} {c : Cls} {T : QN}
    (hT : T ∈ typesOf c) {e : Xml} (he : Valid ok T e) (hor : Orderly F N e) (htag : e.tag = tagOf (elemName c)) {ns ns' : Str}
    {nss' : NsMap} {as : List (Str × Val Cls F)} (h : parse fastkml strict e c ns N = .ok (.obj c ns' nss' as)) : InOrder c as := by
  obtain ⟨⟨i1, m1, g1, a1, c1⟩, ⟨i2, m2, g2, a2, c2⟩, ⟨i3, m3, g3, a3, c3⟩, ⟨i4, m4, g4, a4, c4⟩,
    ⟨i5, m5, g5, a5, cs, -, c5, k5, n5, o5⟩, o6, o1⟩ := listed_items
  unfold InOrder
  split
  · obtain ⟨vss, h1, h2⟩ := members_groups hm hN hT he h m1 g1
    rw [a1] at h2
    rw [h2]
    rw [c1] at h1
    refine groups_sublist (h1.imp ?_)
    rintro t ht vs - ⟨d, rfl, hw, hl⟩
    refine ⟨d, rfl, hw, Nat.le_trans hl (named_once he (o1 T hT d ?_))⟩
    simpa using ht
  · obtain ⟨vss, h1, h2⟩ := members_groups hm hN hT he h m2 g2
    rw [a2] at h2
    rw [c2] at h1
    cases h1 with
    | cons ha h1 =>
      cases h1 with
      | cons hb h1 =>
        cases h1
        obtain ⟨_, ⟨⟩, ha, -⟩ := ha
        obtain ⟨_, ⟨⟩, hb, -⟩ := hb
        exact ⟨_, _, by simpa using h2, ha, hb⟩
  · rcases hor.document htag with hno | hno
    · right
      obtain ⟨vss, h1, h2⟩ := members_groups hm hN hT he h m4 g4
      rw [a4] at h2
      rw [c4] at h1
      cases h1 with
      | cons ha h1 =>
        cases h1
        obtain ⟨_, ⟨⟩, -, ha⟩ := ha
        rw [show elemName .Schema = .q .kml (s% "Schema") from rfl, hno] at ha
        rw [h2]
        simpa using ha
    · left
      obtain ⟨vss, h1, h2⟩ := members_groups hm hN hT he h m3 g3
      rw [a3] at h2
      rw [h2, List.flatten_eq_nil_iff]
      intro vs hvs
      obtain ⟨t, ht, d, rfl, -, hl⟩ := h1.mem_right hvs
      have hc := List.all_eq_true.mp c3 _ ht
      simp only [decide_eq_true_eq] at hc
      obtain ⟨n, hn, hd⟩ := hc
      have : childrenNamed e (elemName d) = [] := by
        rw [childrenNamed, List.filter_eq_nil_iff]
        intro k hk
        rw [decide_eq_true_eq, hd]
        exact hno k hk n hn
      rw [this] at hl
      simpa using hl
  · obtain ⟨vss, h1, h2⟩ := members_groups hm hN hT he h m5 g5
    rw [a5] at h2
    rw [c5] at h1
    obtain ⟨v1, v2, rfl, hv, h3⟩ := all2_append h1
    cases h3 with
    | @cons _ ctl _ _ hc h3 =>
      cases h3
      obtain ⟨_, ⟨⟩, hcc, hcl⟩ := hc
      have hcl' := Nat.le_trans hcl (named_once he (o6 T hT))
      rw [h2]
      rcases hor.root htag with hno | hno
      · have : ctl = [] := by
          rw [show elemName .NetworkLinkControl = .q .kml (s% "NetworkLinkControl") from rfl, hno] at hcl
          simpa using hcl
        subst this
        refine ⟨[], v1.flatten, by simp, by simp, ?_, by simp, ?_⟩
        · refine Nat.le_trans (groups_length (e := e) (hv.imp ?_) n5) (few_children he (o5 T hT))
          rintro t - vs - ⟨d, rfl, -, hl⟩
          exact ⟨d, rfl, hl⟩
        · intro w hw
          obtain ⟨vs, hvs, hw⟩ := List.mem_flatten.mp hw
          obtain ⟨t, ht, d, rfl, hcls, -⟩ := hv.mem_right hvs
          have hc := List.all_eq_true.mp k5 _ ht
          simp only [decide_eq_true_eq] at hc
          rw [hcls w hw]
          simpa using hc.1
      · have : v1.flatten = [] := by
          rw [List.flatten_eq_nil_iff]
          intro vs hvs
          obtain ⟨t, ht, d, rfl, -, hl⟩ := hv.mem_right hvs
          have hc := List.all_eq_true.mp k5 _ ht
          simp only [decide_eq_true_eq] at hc
          obtain ⟨-, n, hn, hnn, hd⟩ := hc
          have : childrenNamed e (elemName d) = [] := by
            rw [childrenNamed, List.filter_eq_nil_iff]
            intro k hk
            rw [decide_eq_true_eq, hd]
            exact hno k hk n hn hnn
          rw [this] at hl
          simpa using hl
        refine ⟨ctl, [], by simp [this], hcl', by simp, hcc, by simp⟩
  · trivial

theorem icon_items : (∃ it ∈ fastkml.itemsOf .IconStyle, it.get = .xmlSub ∧ it.attr = s% "icon" ∧ it.classes = [.cls .Icon]) ∧
    (∀ T ∈ typesOf .IconStyle, ∀ p ∈ partsOf 8 T, ∀ x ∈ p.elems, x.1 = elemName .Icon → x.2 = some basicLink) ∧
    ∀ a ∈ linkExtras, ∃ it ∈ fastkml.itemsOf .Icon, it.attr = a ∧ place it.get = .child ∧ ident .Icon it = false ∧
      declaredTypes basicLink it.node = [] ∧ ((typeAttrs 8 basicLink).all fun x => !sameStr x.name it.node) = true := by
  decide +kernel

/-- Only the target of the icon of an icon style is read. -/
theorem only_href {N : NsMap} (hm : mergeNs N = N) (hN : StdNs N) {strict : Bool} {T : QN}
    (hT : T ∈ typesOf .IconStyle) {e : Xml} (he : Valid ok T e) {ns ns' : Str}
    {nss' : NsMap} {as : List (Str × Val Cls F)} (h : parse fastkml strict e .IconStyle ns N = .ok (.obj .IconStyle ns' nss' as))
    {d : Cls} {ns1 : Str} {nss1 : NsMap} {bs : List (Str × Val Cls F)} (hi : attr (s% "icon") as = .obj d ns1 nss1 bs) :
    ∀ a ∈ linkExtras, attr a bs = .none := by
  obtain ⟨⟨it, hit, hg, ha, hc⟩, hty, hex⟩ := icon_items
  rcases C14_object strict e .IconStyle ns N .IconStyle ns' nss' as h it hit hg with ⟨h1, -⟩ |
    ⟨pre, id, post, cpre, d', cpost, k, hids, hcs, -, -, hk, hp⟩
  · rw [ha, hi] at h1; cases h1
  · rw [hm] at hk hp
    rw [ha, hi] at hp
    have hd' : (PyType.cls d') ∈ it.classes := by rw [hcs]; simp
    have hmem := List.mem_of_find?_eq_some hk
    have htag : k.tag = nsGet N id ++ (fastkml.info d').tag := by simpa using List.find?_some hk
    obtain ⟨t, ⟨p, hpp, hx⟩, ht, hv, -, -⟩ := child_valid hN hT he hmem hit (.inl hg) hd' (by rw [hids]; simp) htag
    have hI : d' = .Icon := by rw [hc] at hd'; simpa using hd'
    subst hI
    have htt : t = basicLink := by simpa using hty T hT p hpp _ hx rfl
    subst htt
    obtain ⟨rfl, -, -⟩ := settled_parse hp
    intro a hal
    obtain ⟨i, hii, rfl, hpl, hid, hdt, hat⟩ := hex a hal
    rw [C14_scalar strict k .Icon _ N _ _ _ bs hp i hii (by simp [scalar, hpl]), hm]
    cases hfv : (firstValue strict i N k i.nsIds : Option (Val Cls F)) with
    | none => simp [stored, hid]
    | some v =>
      exfalso
      obtain ⟨id', hid', u, hu, -⟩ := firstValue_text hfv
      rcases text_valid hN ht hv hii (.inl hpl) hid' hu with ⟨t, hd, -⟩ | ⟨x, hx, hn, -⟩
      · have := mem_declaredTypes.mpr hd
        rw [hdt] at this
        cases this
      · have := List.all_eq_true.mp hat x hx
        simp [sameStr_iff.mpr hn] at this

/-! ## Tracks -/

theorem no_rows {strict : Bool} {e : Xml} {c : Cls} {ns ns' : Str} {N nss' : NsMap} {as : List (Str × Val Cls F)}
    (h : parse fastkml strict e c ns N = .ok (.obj c ns' nss' as)) (hc : c ≠ .Track) : rows as = [] := by
  obtain ⟨-, -, hset⟩ := settled_parse h
  have hsp : (fastkml.info c).special ≠ .track := fun h => hc (only_track h)
  have key : ∀ c ∈ Cls.all, s% "track_items" ∉ (fastkml.info c).slots.map Prod.fst := by decide +kernel
  have hlay := hset.layout
  rw [if_neg hsp, List.nil_append] at hlay
  have : dget (s% "track_items") as = none := by
    cases hd : dget (s% "track_items") as with
    | none => rfl
    | some v =>
      refine absurd ?_ (key c (Cls.mem_all c))
      rw [← hlay]
      exact List.mem_map.mpr ⟨_, dget_mem hd, rfl⟩
  simp only [rows, attr, this, Option.getD_none]

theorem gathered_id {α : Type} {f : Xml → Option α} {N : NsMap} {e : Xml} {node : Str} {ids : List Str} {x : α}
    (h : x ∈ gathered f N e node ids) : ∃ id ∈ ids, ∃ k ∈ e.kids, k.tag = nsGet N id ++ node ∧ f k = some x := by
  induction ids with
  | nil => cases h
  | cons id ids ih =>
    simp only [gathered] at h
    split at h
    · obtain ⟨i, hi, h⟩ := ih h
      exact ⟨i, List.mem_cons_of_mem _ hi, h⟩
    · obtain ⟨k, hk, hx⟩ := List.mem_filterMap.mp h
      simp only [Xml.findall, List.mem_filter, decide_eq_true_eq] at hk
      exact ⟨id, List.mem_cons_self, k, hk.1, hk.2, hx⟩

/-- The rows of a track that is read from a valid element. -/
theorem rows_kept [LawfulExt F] {N : NsMap} (hm : mergeNs N = N) (hN : StdNs N) {strict : Bool} {T : QN}
    (hT : T ∈ typesOf .Track) {e : Xml} (he : Valid (keptOk F) T e) {ns ns' : Str} {nss' : NsMap} {as : List (Str × Val Cls F)}
    (h : parse fastkml strict e .Track ns N = .ok (.obj .Track ns' nss' as)) :
    (∀ r ∈ rows as, ∀ k, r.when_ = some k → Spec.Fine (F := F) (.q .kml (s% "dateTimeType")) (.dt k)) ∧
    ((positionsOf (F := F) N e).length ≤ (timesOf F N e).length → ∀ r ∈ rows as, r.when_ ≠ none) := by
  have h33 := C33_rows h
  rw [hm] at h33
  split at h33
  · rw [h33]; simp
  · obtain ⟨⟨hlen, hrow⟩, _⟩ := h33
    have hget : ∀ r ∈ rows as, ∃ i, i < (positionsOf (F := F) N e).length ∧ r.when_ = ((timesOf F N e).map some)[i]?.join := by
      intro r hr
      obtain ⟨i, hi⟩ := List.getElem?_of_mem hr
      have hlt : i < (positionsOf (F := F) N e).length := by
        rw [← hlen]; exact (List.getElem?_eq_some_iff.mp hi).1
      have := hrow i _ (List.getElem?_eq_getElem hlt)
      rw [hi, Option.some.injEq] at this
      subst this
      exact ⟨i, hlt, rfl⟩
    constructor
    · intro r hr k hk
      obtain ⟨i, -, hw⟩ := hget r hr
      rw [hk] at hw
      have hw := hw.symm
      simp only [List.getElem?_map, Option.join_eq_some_iff, Option.map_eq_some_iff, Option.some.injEq] at hw
      obtain ⟨k', hk', rfl⟩ := hw
      obtain ⟨id, hid, x, hx, hid', ht⟩ := gathered_id (List.mem_of_getElem? hk')
      simp only [timeIn, Option.bind_eq_some_iff] at ht
      obtain ⟨s, hs, hp⟩ := ht
      obtain ⟨q, t, hq, ⟨p, hpp, hxx⟩, hv⟩ := valid_kid he hx
      have hqw : q = .q .kml (s% "when") := by
        have hnm : q.name = s% "when" := by
          have hq' : nsGet N id ++ s% "when" = tagOf q := hid'.symm.trans hq
          have hids : id = s% "kml" ∨ id = s% "gx" ∨ id = [] := by simpa using hid
          rcases hids with rfl | rfl | rfl
          · rw [(hN _).1 .kml (by decide)] at hq'
            rw [← tagOf_inj (q := .q .kml (s% "when")) hq']; rfl
          · rw [(hN _).1 .gx (by decide)] at hq'
            rw [← tagOf_inj (q := .q .gx (s% "when")) hq']; rfl
          · rw [(hN []).2 rfl] at hq'
            have := tagOf_brace q
            rw [← hq'] at this
            cases this
        exact (rows_declared hT hpp hxx).1 hnm
      subst hqw
      have htt : t = .q .kml (s% "dateTimeType") := by
        have key : ∀ T ∈ typesOf .Track, ∀ p ∈ partsOf 8 T, ∀ x ∈ p.elems, x.1 = .q .kml (s% "when") →
          x.2 = some (.q .kml (s% "dateTimeType")) := by decide +kernel
        simpa using key T hT p hpp _ hxx rfl
      subst htt
      have hok : keptOk F (.q .kml (s% "dateTimeType")) s := by
        cases hv with
        | simple hd hattr hk ht => exact ht s hs
        | complex hd _ _ _ _ _ => rw [simple_types _ (by decide)] at hd; cases hd
      exact time_kept (.inr rfl) hok hp
    · intro hle r hr hn
      obtain ⟨i, hi, hw⟩ := hget r hr
      rw [hn] at hw
      have : i < (timesOf F N e).length := by omega
      simp [List.getElem?_eq_getElem this] at hw

/-! ## C74 -/

theorem declared_class {c : Cls} {T : QN} (h : T ∈ typesOf c) : elemType c ≠ none := by
  have key : ∀ c ∈ Cls.all, typesOf c ≠ [] → elemType c ≠ none := by decide +kernel
  exact key c (Cls.mem_all c) (List.ne_nil_of_mem h)

/-- The attribute of an item that is not a scalar is no text, number or time. -/
theorem unscalar_fine {strict : Bool} {e : Xml} {c : Cls} {ns ns' : Str} {N nss' : NsMap} {as : List (Str × Val Cls F)}
    (h : parse fastkml strict e c ns N = .ok (.obj c ns' nss' as)) {it : Item Cls} (hit : it ∈ fastkml.itemsOf c)
    (hs : scalar it.get = false) (t : QN) : Spec.Fine t (attr it.attr as) := by
  have hk := (typed_obj.mp (parse_typed fastkml_readOk h).1).1 it hit
  rw [← attr_eq] at hk
  by_cases hg : it.get = .subDtList ∨ it.get = .coordsList
  · obtain ⟨-, -, hset⟩ := settled_parse h
    have hno := fastkml_computed c it hit hg
    rw [← hset.layout] at hno
    have : dget it.attr as = none := by
      cases hd : dget it.attr as with
      | none => rfl
      | some v => exact absurd (List.mem_map.mpr ⟨_, dget_mem hd, rfl⟩) hno
    rw [attr, this]
    trivial
  · rw [not_or] at hg
    cases hv : attr it.attr as <;> first | trivial | (
      rw [hv] at hk
      cases hgg : it.get <;> simp_all [kindOk, scalar, place, isInst])

/-- Everything in an object that is read from a valid document meets the conditions under
which valid documents are written. -/
theorem resaved [LawfulExt F] [KeepsRanges F] {N : NsMap} (hm : mergeNs N = N) (hN : StdNs N) {strict : Bool} {c : Cls} {T : QN}
    (hT : T ∈ typesOf c) {e : Xml} (he : Valid (keptOk F) T e) (htag : e.tag = tagOf (elemName c))
    (hor : ∀ d, Sub e d → Orderly F N d) {v : Val Cls F} (h : parse fastkml strict e c (uri (xnsOf c)) N = .ok v)
    {o : Opts} (ho : o.verbosity ≠ .verbose) : AllSchematic o v ∧ AllValued o v := by
  have hin : ∀ {c' : Cls} {ns' : Str} {nss' : NsMap} {as : List (Str × Val Cls F)}, Inside (.obj c' ns' nss' as) v →
      ∃ d T', Sub e d ∧ T' ∈ typesOf c' ∧ Valid (keptOk F) T' d ∧ parse fastkml strict d c' ns' N = .ok (.obj c' ns' nss' as) ∧
        d.tag = tagOf (elemName c') ∧ ns' = uri (xnsOf c') := by
    intro c' ns' nss' as hi
    obtain ⟨d, T', h1, h2, h3, h4, h5⟩ := inside_valid hm hN e hT he h hi
    refine ⟨d, T', h1, h2, h3, h4, ?_⟩
    rcases h5 with ⟨rfl, h5⟩ | h5
    · obtain ⟨rfl, rfl, -⟩ := settled_parse (show parse fastkml strict d c _ N = .ok (.obj c' ns' nss' as) by rw [h, h5])
      exact ⟨htag, rfl⟩
    · exact h5
  constructor
  · intro c' ns' nss' as hi
    obtain ⟨d, T', hs, hT', hv, hp, ht, hns⟩ := hin hi
    obtain ⟨-, -, hset⟩ := settled_parse hp
    have hnss : nss' = N := by rw [hset.nss, hm]
    refine ⟨⟨hns, ?_, ?_, ?_⟩, declared_class hT', in_order hm hN hT' hv (hor d hs) ht hp, ?_⟩
    · rw [hnss]; exact (hN _).1 .kml (by decide)
    · rw [hnss]; exact (hN _).1 .gx (by decide)
    · rintro rfl
      exact (rows_kept hm hN hT' hv hp).2 ((hor d hs).track (by rw [ht]; rfl))
    · rintro rfl d' ns1 nss1 bs hb
      exact ⟨ho, only_href hm hN hT' hv hp hb⟩
  · intro c' ns' nss' as hi
    obtain ⟨d, T', hs, hT', hv, hp, ht, hns⟩ := hin hi
    refine ⟨?_, ?_⟩
    · intro T2 hT2 it hit t hdt
      have hT2' : T2 ∈ typesOf c' := by
        rcases hT2 with h | ⟨rfl, rfl⟩
        · simp [typesOf, h]
        · simp [typesOf]
      have hf : Spec.Fine t (attr it.attr as) := by
        cases hsc : scalar it.get with
        | true => exact scalar_fine hm hN hT2' hT' hv hp hit hsc hdt
        | false => exact unscalar_fine hp hit hsc t
      unfold shown
      split
      · exact hf
      · split
        · trivial
        · exact hf
      · rename_i hvb; exact absurd hvb ho
    · by_cases hc : c' = .Track
      · subst hc
        exact (rows_kept hm hN hT' hv hp).1
      · rw [no_rows hp hc]; simp

theorem valid_mono {ok ok' : QN → Str → Prop} (hok : ∀ t s, ok t s → ok' t s) (e : Xml) : ∀ {T : QN}, Valid ok T e → Valid ok' T e := by
  induction e using Xml.ind with
  | h t as x ks ih =>
    intro T h
    cases h with
    | simple hs ha hk ht => exact .simple hs ha hk fun s hs => hok _ _ (ht s hs)
    | complex hs ha hr hx hq hk =>
      refine .complex hs ?_ hr hx hq ?_
      · intro k s hs
        obtain ⟨a, h1, h2, h3⟩ := ha k s hs
        exact ⟨a, h1, h2, fun ty hty => hok _ _ (h3 ty hty)⟩
      · simp only [Xml.kids] at hk ih ⊢
        clear hq hs ha hr hx
        rename_i ty qs
        induction ks generalizing qs with
        | nil => cases hk; exact .nil
        | cons k ks ih2 =>
          cases hk with
          | cons hn hv h => exact .cons hn (ih k (by simp) hv) (ih2 (fun k hk => ih k (by simp [hk])) h)

/-- **C74.** Saving a valid document gives a valid document: whatever is read from an
element that is valid for the type of its class, strictly or not, is written as an element
with the same name that is valid for the type, with all its texts.  The object must not be
empty; the values must be such that they can be written again (`Repeatable`), and the
content in the order in which it is written (`Orderly`). -/
theorem C74_saved [LawfulExt F] [KeepsRanges F] {c : Cls} {T : QN} (hc : elemType c = some T) {e : Xml}
    (hr : e.tag = tagOf (elemName c)) (he : Valid (keptOk F) T e) (hor : ∀ d, Sub e d → Orderly F (mergeNs []) d)
    {strict : Bool} {v : Val Cls F} (h : fromElement fastkml strict c none [] e = .ok v) (hne : truthy fastkml v = .ok true)
    {o : Opts} (ho : o.verbosity ≠ .verbose) {e' : Xml} (hs : ser fastkml o v = .ok e') :
    e'.tag = e.tag ∧ Valid lexOk T e' := by
  have key : ∀ c ∈ Cls.all, elemType c ≠ none → nsGet (mergeNs []) (fastkml.info c).nsid = uri (xnsOf c) := by decide +kernel
  have hT : T ∈ typesOf c := by simp [typesOf, hc]
  have h : parse fastkml strict e c (uri (xnsOf c)) (mergeNs []) = .ok v := by
    rw [← key c (Cls.mem_all c) (by rw [hc]; simp)]
    exact h
  obtain ⟨h1, h2⟩ := resaved (mergeNs_idem []) stdNs_default hT he hr hor h ho
  obtain ⟨ht, as, rfl⟩ := parse_typed fastkml_readOk h
  obtain ⟨T', hT', htag, hv⟩ := C44_values ht h1 h2 hne hs
  rw [hc] at hT'
  cases hT'
  exact ⟨htag.trans hr.symm, hv⟩

/-- **C74** for `KML.parse`. -/
theorem C74_kml [LawfulExt F] [KeepsRanges F] {T : QN} (hT : elemType .KML = some T) {root : Xml}
    (hr : root.tag = tagOf (elemName .KML)) (he : Valid (keptOk F) T root) (hor : ∀ d, Sub root d → Orderly F (mergeNs []) d)
    {strict : Bool} {v : Val Cls F} (h : parseRoot none none strict root = .ok v) (hne : truthy fastkml v = .ok true)
    {o : Opts} (ho : o.verbosity ≠ .verbose) {e' : Xml} (hs : ser fastkml o v = .ok e') :
    e'.tag = root.tag ∧ Valid lexOk T e' := by
  have hn : detectNs none root = uri .kml := by
    simp only [detectNs, hr]
    decide +kernel
  have hm : mergeNs (parseNss (uri .kml) []) = mergeNs [] := by decide +kernel
  refine C74_saved hT hr he hor (strict := strict) ?_ hne ho hs
  simp only [parseRoot, hn] at h
  have hp : parse fastkml strict root .KML (uri .kml) (mergeNs []) = .ok v := by rw [← hm]; exact h
  exact hp

/-- **C74** together with C63: a valid document is opened, and what is saved is valid. -/
theorem C74_opened [LawfulExt F] [ReadsDoubles F] [KeepsRanges F] {c : Cls} {T : QN} (hc : elemType c = some T) {e : Xml}
    (hr : e.tag = tagOf (elemName c)) (he : Valid (keptOk F) T e) (hf : Fit F (WellFormedTime F) e c T)
    (hor : ∀ d, Sub e d → Orderly F (mergeNs []) d) :
    ∃ v : Val Cls F, fromElement fastkml true c none [] e = .ok v ∧ Kept e c T v ∧
      ∀ o : Opts, ∃ e', ser fastkml o v = .ok e' ∧ (o.verbosity ≠ .verbose → truthy fastkml v = .ok true →
        e'.tag = e.tag ∧ Valid lexOk T e') := by
  obtain ⟨v, h, hk, hs⟩ := C63_values (F := F) hc (valid_mono (fun _ _ h => h.1) e he) hf none
  refine ⟨v, h, hk, fun o => ?_⟩
  obtain ⟨e', hs⟩ := hs o
  exact ⟨e', hs, fun ho hne => C74_saved hc hr he hor h hne ho hs⟩

/-! ## Cases -/

/-- `Repeatable`, computed (numbers: some texts). -/
def repeatableB (F : Type) [PyExt F] (t : QN) (s : Str) : Bool :=
  (!decide (t = .q .xs (s% "double") ∨ t = .q .xs (s% "float")) || sameStr s (s% " 1.5 ")) &&
  (!decide (t = .q .kml (s% "dateTimeType")) || ([s, strip s].all fun u => match KmlDateTime.parse (PyExt.arrowGet F) u with
    | none => true
    | some k => (decide (k.res ≠ .year ∧ k.res ≠ .yearMonth) || Nat.ble 1000 k.dt.day.y) && match k.dt with
      | .date _ => true
      | .dt _ t => match t.off with
        | none => true
        | some o => decide (-840 ≤ o ∧ o ≤ 840))) &&
  (!decide (t ∈ [.q .xs (s% "ID"), .q .xs (s% "NCName"), .q .atom (s% "atomMediaType"), .q .atom (s% "atomEmailAddress")]) ||
    (strip s).isEmpty || lexB t (strip s))

theorem oneAndHalf {lo hi : Int} (h1 : lo ≤ 1) (h2 : 2 ≤ hi) : Padded (RangeText lo hi) (s% " 1.5 ") := by
  refine ⟨s% " ", s% "1.5", s% " ", rfl, by decide, false, 15, 1, 0, ⟨[], s% "1.5", [], rfl, .inl rfl, ?_, .inl ⟨rfl, rfl⟩⟩, ?_⟩
  · exact ⟨s% "1", s% "5", by unfold DecDigits; decide, by unfold DecDigits; decide, by decide, rfl, rfl, .inl rfl⟩
  · simp only [Between]
    have : (10 : Int) ^ (1 + (-(0 : Int)).toNat) = 10 := by decide
    rw [this]
    simp
    omega

theorem repeatableB_sound {t : QN} {s : Str} (h : repeatableB F t s = true) : Repeatable F t s := by
  simp only [repeatableB, Bool.and_eq_true, Bool.or_eq_true, Bool.not_eq_true', decide_eq_false_iff_not, sameStr_iff] at h
  obtain ⟨⟨h1, h2⟩, h3⟩ := h
  refine ⟨fun ht => ?_, fun ht k hk => ?_, fun ht hne => ?_⟩
  · rcases h1 with h | rfl
    · exact absurd ht h
    · exact oneAndHalf (by decide) (by decide)
  · rcases h2 with h | h
    · exact absurd ht h
    · have h := List.all_eq_true.mp h
      obtain ⟨u, hu, hk⟩ : ∃ u ∈ [s, strip s], KmlDateTime.parse (PyExt.arrowGet F) u = some k := by
        rcases hk with hk | hk
        · exact ⟨s, by simp, hk⟩
        · exact ⟨strip s, by simp, hk⟩
      have h := h u hu
      rw [hk] at h
      simp only [Bool.and_eq_true, Bool.or_eq_true, decide_eq_true_eq] at h
      refine ⟨fun hr => ?_, fun d t o hd ho => ?_⟩
      · rcases h.1 with h | h
        · exact absurd hr fun h' => h'.elim h.1 h.2
        · exact Nat.le_of_ble_eq_true h
      · have h := h.2
        rw [hd] at h
        simp only [ho, decide_eq_true_eq] at h
        exact h
  · rcases h3 with (h | h) | h
    · exact absurd ht h
    · exact absurd (List.isEmpty_iff.mp h) hne
    · exact lexB_sound h

/-- `keptOk`, computed for some texts. -/
def keptB (F : Type) [PyExt F] (t : QN) (s : Str) : Bool :=
  (scientificB t s || (decide (t = .q .xs (s% "double")) && sameStr s (s% " 1.5 "))) && repeatableB F t s

theorem keptB_sound {t : QN} {s : Str} (h : keptB F t s = true) : keptOk F t s := by
  simp only [keptB, Bool.and_eq_true, Bool.or_eq_true, decide_eq_true_eq, sameStr_iff] at h
  refine ⟨?_, repeatableB_sound h.2⟩
  rcases h.1 with h | ⟨rfl, rfl⟩
  · exact scientificB_sound h
  · obtain ⟨w, u, w', hs, hw, n, m, k, e, hd, -⟩ := oneAndHalf (lo := 0) (hi := 2) (by decide) (by decide)
    exact lexOk_double (.inl rfl) ⟨w, u, w', hs, hw, .inr ⟨n, m, k, e, hd⟩⟩

/-- `Orderly`, computed. -/
def orderlyB (F : Type) [PyExt F] (N : NsMap) (d : Xml) : Bool :=
  (!decide (d.tag = tagOf (.q .gx (s% "Track"))) || Nat.ble (positionsOf (F := F) N d).length (timesOf F N d).length) &&
  (!decide (d.tag = tagOf (.q .kml (s% "Document"))) || (childrenNamed d (.q .kml (s% "Schema"))).isEmpty ||
    d.kids.all fun k => memberNames.all fun n => !decide (k.tag = tagOf (.q .kml n))) &&
  (!decide (d.tag = tagOf (.q .kml (s% "kml"))) || (childrenNamed d (.q .kml (s% "NetworkLinkControl"))).isEmpty ||
    d.kids.all fun k => memberNames.all fun n => decide (n = s% "NetworkLinkControl") || !decide (k.tag = tagOf (.q .kml n)))

theorem orderlyB_sound {N : NsMap} {d : Xml} (h : orderlyB F N d = true) : Orderly F N d := by
  simp only [orderlyB, Bool.and_eq_true, Bool.or_eq_true, Bool.not_eq_true', decide_eq_false_iff_not, List.isEmpty_iff,
    List.all_eq_true, decide_eq_true_eq] at h
  obtain ⟨⟨h1, h2⟩, h3⟩ := h
  refine ⟨fun ht => ?_, fun ht => ?_, fun ht => ?_⟩
  · exact Nat.le_of_ble_eq_true (h1.resolve_left fun h => h ht)
  · rcases h2 with (h | h) | h
    · exact absurd ht h
    · exact .inl h
    · exact .inr h
  · rcases h3 with (h | h) | h
    · exact absurd ht h
    · exact .inl h
    · exact .inr fun k hk n hn hne => (h k hk n hn).resolve_left hne

/-- It can be opened and saved. -/
def openedB (e : Xml) : Bool :=
  match (parseRoot none none false e : Except Err (Val Cls Fix)) with
  | .ok v => (match truthy fastkml v with
    | .ok b => b
    | .error _ => false) && match ser fastkml ⟨none, .normal⟩ v with
      | .ok _ => true
      | .error _ => false
  | .error _ => false

/-- A document that meets the hypotheses of `C74_kml`. -/
theorem C74_case {e : Xml} (hr : e.tag = tagOf (elemName .KML)) (hv : validB (keptB Fix) 10 (.q .kml (s% "KmlType")) e = true)
    (hor : allNodes (orderlyB Fix (mergeNs [])) e = true) (hop : openedB e = true) :
    ∃ (v : Val Cls Fix) (e' : Xml), parseRoot none none false e = .ok v ∧ ser fastkml ⟨none, .normal⟩ v = .ok e' ∧
      e'.tag = e.tag ∧ Valid lexOk (.q .kml (s% "KmlType")) e' := by
  unfold openedB at hop
  split at hop
  · rename_i v hv'
    rw [Bool.and_eq_true] at hop
    obtain ⟨h1, h2⟩ := hop
    split at h1
    · rename_i b hb
      subst h1
      split at h2
      · rename_i e' he'
        exact ⟨v, e', hv', he', C74_kml (by decide +kernel) hr (validB_sound keptB_sound hv)
          (fun d hd => orderlyB_sound (allNodes_sub hd hor)) hv' hb (by decide) he'⟩
      · cases h2
    · cases h1
  · cases hop

/-- A document with blanks around values, a style and a track. -/
def resavedDoc : Xml := kNode (s% "kml") [] [kNode (s% "Document") [(s% "id", s% "d1")] [
  kLeaf (s% "visibility") (s% " true\n"),
  kNode (s% "Style") [] [kNode (s% "LineStyle") [] [kLeaf (s% "color") (s% "ff0000FF"), kLeaf (s% "width") (s% " 1.5 ")]],
  kNode (s% "Placemark") [(s% "id", s% "p1")] [
    kNode (s% "TimeStamp") [] [kLeaf (s% "when") (s% "2020-01-02")],
    .mk (gxNs ++ s% "Track") [] none [
      kLeaf (s% "when") (s% "2020-01-02"), kLeaf (s% "when") (s% "2020-01-02"),
      .leaf (gxNs ++ s% "coord") (s% "1 2"), .leaf (gxNs ++ s% "coord") (s% "3 4 5")]],
  kNode (s% "Placemark") [] [kNode (s% "Point") [] [kLeaf (s% "coordinates") (s% "1,2")]]]]

example : ∃ (v : Val Cls Fix) (e' : Xml), parseRoot none none false resavedDoc = .ok v ∧
    ser fastkml ⟨none, .normal⟩ v = .ok e' ∧ e'.tag = resavedDoc.tag ∧ Valid lexOk (.q .kml (s% "KmlType")) e' :=
  C74_case (by decide +kernel) (by decide +kernel) (by decide +kernel) (by decide +kernel)

/-! ## Valid documents that are not saved as valid documents -/

/-- Read as an object of the class and written, the element is not in an order that the
schema accepts. -/
def spoiledB (c : Cls) (e : Xml) : Bool :=
  match (fromElement fastkml true c none [] e : Except Err (Val Cls Fix)) with
  | .ok v => disordered c ⟨none, .normal⟩ v
  | .error _ => false

theorem spoiledB_sound {c : Cls} {e : Xml} (h : spoiledB c e = true) : ∃ (v : Val Cls Fix) (t : QN) (e' : Xml),
    fromElement fastkml true c none [] e = .ok v ∧ elemType c = some t ∧ ser fastkml ⟨none, .normal⟩ v = .ok e' ∧
      ¬ Valid ok t e' := by
  unfold spoiledB at h
  split at h
  · rename_i v hv
    obtain ⟨t, e', h1, h2, h3⟩ := disordered_sound (ok := ok) h
    exact ⟨v, t, e', hv, h1, h2, h3⟩
  · cases h

/-- A valid document with a schema and a feature. -/
def schemaFirst : Xml := kNode (s% "Document") [] [
  kNode (s% "Schema") [(s% "id", s% "s1")] [], kNode (s% "Placemark") [] [kLeaf (s% "name") (s% "A")]]

/-- **C74, excluded case.** A valid document with a schema and a feature is read in the
strict mode, and what is saved is not valid: the schema comes last. -/
theorem C74_document : Valid lexOk (.q .kml (s% "DocumentType")) schemaFirst ∧ ∃ (v : Val Cls Fix) (t : QN) (e' : Xml),
    fromElement fastkml true .Document none [] schemaFirst = .ok v ∧ elemType .Document = some t ∧
      ser fastkml ⟨none, .normal⟩ v = .ok e' ∧ ¬ Valid lexOk t e' :=
  ⟨validB_sound scientificB_sound (n := 10) (by decide +kernel), spoiledB_sound (by decide +kernel)⟩

/-- A valid file with a control element and a feature. -/
def controlFirst : Xml := kNode (s% "kml") [] [kNode (s% "NetworkLinkControl") [] [kLeaf (s% "cookie") (s% "c")],
  kNode (s% "Placemark") [] [kLeaf (s% "name") (s% "A")]]

/-- **C74, excluded case.** A valid file with a control element and a feature: the control
element comes last. -/
theorem C74_control : Valid lexOk (.q .kml (s% "KmlType")) controlFirst ∧ ∃ (v : Val Cls Fix) (t : QN) (e' : Xml),
    fromElement fastkml true .KML none [] controlFirst = .ok v ∧ elemType .KML = some t ∧
      ser fastkml ⟨none, .normal⟩ v = .ok e' ∧ ¬ Valid lexOk t e' :=
  ⟨validB_sound scientificB_sound (n := 10) (by decide +kernel), spoiledB_sound (by decide +kernel)⟩

end Verif
