import Verif.Spec.Said
import Verif.Props.Access
import Verif.Props.Reading
import Verif.Props.Scalars
import Verif.Props.Tracks
import Verif.Props.XmlText

set_option linter.unusedSectionVars false
set_option linter.unusedSimpArgs false

/-!
# C72: reading invents nothing
-/

namespace Verif

open Spec

variable {F : Type} [PyExt F]

/-! ## The names -/

/-- The node text belongs to the attribute the specification names, and so do the children
and XML attributes of scalar items and the children of object items. -/
def namesB (c : Cls) (it : Item Cls) : Bool :=
  (if it.get = .nodeText then decide (textHolder c = some it.attr)
   else if scalar it.get = true then decide (holder c it.node = it.attr)
   else true) &&
  it.classes.all fun t => match t with
    | .cls d => decide (holder c (elemName d).name = it.attr)
    | _ => true

theorem fastkml_names (c : Cls) : ∀ it ∈ fastkml.itemsOf c, namesB c it = true := by
  have key : ∀ c ∈ Cls.all, ∀ it ∈ fastkml.itemsOf c, namesB c it = true := by decide +kernel
  exact key c (Cls.mem_all c)

theorem fastkml_coordsClass (c : Cls) : ∀ it ∈ fastkml.itemsOf c, it.get = .coordinates →
    c = .Coordinates ∧ it.attr = s% "coords" := by
  have key : ∀ c ∈ Cls.all, ∀ it ∈ fastkml.itemsOf c, it.get = .coordinates →
    c = .Coordinates ∧ it.attr = s% "coords" := by decide +kernel
  exact key c (Cls.mem_all c)

theorem fastkml_trackClass (c : Cls) (h : (fastkml.info c).special = .track) : c = .Track := by
  have key : ∀ c ∈ Cls.all, (fastkml.info c).special = .track → c = .Track := by decide +kernel
  exact key c (Cls.mem_all c) h

/-- The times, positions and angles of a track are not stored. -/
theorem fastkml_computed (c : Cls) : ∀ it ∈ fastkml.itemsOf c, it.get = .subDtList ∨ it.get = .coordsList →
    it.attr ∉ (if (fastkml.info c).special = .track then [s% "track_items"] else []) ++
      (fastkml.info c).slots.map Prod.fst := by
  have key : ∀ c ∈ Cls.all, ∀ it ∈ fastkml.itemsOf c, it.get = .subDtList ∨ it.get = .coordsList →
    it.attr ∉ (if (fastkml.info c).special = .track then [s% "track_items"] else []) ++
      (fastkml.info c).slots.map Prod.fst := by decide +kernel
  exact key c (Cls.mem_all c)

theorem mem_saidKids {strict : Bool} {N : NsMap} {k : Xml} {ks : List Xml} (h : k ∈ ks) :
    (k, fun c (v : Val Cls F) => Said strict N k c v) ∈ saidKids (F := F) strict N ks := by
  induction ks with
  | nil => cases h
  | cons k' ks ih =>
    rw [saidKids]
    rcases List.mem_cons.mp h with rfl | h
    · simp
    · exact List.mem_cons_of_mem _ (ih h)

theorem saidKids_mem {strict : Bool} {N : NsMap} {ks : List Xml} {p : Xml × (Cls → Val Cls F → Prop)}
    (h : p ∈ saidKids (F := F) strict N ks) : p.1 ∈ ks ∧ p.2 = fun c v => Said strict N p.1 c v := by
  induction ks with
  | nil => rw [saidKids] at h; cases h
  | cons k ks ih =>
    rw [saidKids] at h
    rcases List.mem_cons.mp h with rfl | h
    · exact ⟨by simp, rfl⟩
    · exact ⟨List.mem_cons_of_mem _ (ih h).1, (ih h).2⟩

/-! ## Scalars -/

theorem tells_denotes {strict : Bool} {it : Item Cls} {t : Str} (ht : t ≠ []) {v : Val Cls F}
    (h : denotes strict it t = some v) : Tells strict t v := by
  cases hg : it.get <;> simp only [denotes, hg] at h
  case nodeText => cases h; exact ⟨ht, Or.inl rfl⟩
  case subText => cases h; exact ⟨ht, Or.inl rfl⟩
  case attrText => cases h; exact ⟨ht, Or.inl rfl⟩
  case subBool =>
    rw [Option.map_eq_some_iff] at h
    obtain ⟨b, hb, rfl⟩ := h
    cases strict with
    | true => exact Or.inl ((C18_strict t b).mp hb)
    | false =>
      refine Or.inr ⟨rfl, ?_⟩
      rcases (C18_lenient t b).mp hb with hb | ⟨_, f, h1, h2⟩
      · refine Or.inl ⟨lower t, hb, (sameWord_iff _ _).mpr ?_⟩
        cases b <;> rcases hb with hb | hb <;> rw [hb] <;> decide
      · exact Or.inr ⟨f, h1, h2⟩
  case subInt => rw [Option.map_eq_some_iff] at h; obtain ⟨i, hi, rfl⟩ := h; exact hi
  case attrInt => rw [Option.map_eq_some_iff] at h; obtain ⟨i, hi, rfl⟩ := h; exact hi
  case subFloat => rw [Option.map_eq_some_iff] at h; obtain ⟨i, hi, rfl⟩ := h; exact hi
  case attrFloat => rw [Option.map_eq_some_iff] at h; obtain ⟨i, hi, rfl⟩ := h; exact hi
  case subDt => rw [Option.map_eq_some_iff] at h; obtain ⟨i, hi, rfl⟩ := h; exact hi
  all_goals try cases h
  all_goals
    split at h
    · rw [Option.map_eq_some_iff] at h
      obtain ⟨x, hx, rfl⟩ := h
      cases strict with
      | true =>
        obtain ⟨h1, h2⟩ := (C19_strict _ _ _).mp hx
        exact ⟨by rw [h1]; exact h2, Or.inl h1⟩
      | false =>
        obtain ⟨h1, h2⟩ := (C19_letters _ _ _).mp hx
        exact ⟨h1, Or.inr ⟨rfl, h2⟩⟩
    · cases h

theorem trimmed_strip {o : Option Str} {t : Str} (h : trimmed o = some t) : ∃ s, o = some s ∧ t = strip s ∧ t ≠ [] := by
  unfold trimmed at h
  cases o with
  | none => cases h
  | some s =>
    simp only at h
    split at h
    · cases h
    · rename_i hne
      cases h
      exact ⟨s, rfl, rfl, hne⟩

theorem given_some {o : Option Str} {t : Str} (h : given o = some t) : o = some t ∧ t ≠ [] := by
  unfold given at h
  cases o with
  | none => cases h
  | some s =>
    simp only at h
    split at h
    · cases h
    · rename_i hne
      cases h
      exact ⟨rfl, hne⟩

theorem textFor_item {N : NsMap} {c : Cls} {e : Xml} {it : Item Cls} (hit : it ∈ fastkml.itemsOf c)
    (hs : scalar it.get = true) {id t : Str} (h : itemText it (nsGet N id) e = some t) :
    TextFor N c e it.attr t ∧ t ≠ [] := by
  have hn := fastkml_names c it hit
  simp only [namesB, Bool.and_eq_true] at hn
  have hn := hn.1
  by_cases hg : it.get = .nodeText
  · simp only [hg, if_true, decide_eq_true_eq] at hn
    simp only [itemText, hg, place] at h
    obtain ⟨_, _, _, hne⟩ := trimmed_strip h
    exact ⟨Or.inl ⟨hn, h⟩, hne⟩
  · simp only [hg, hs, if_true, if_false, decide_eq_true_eq] at hn
    have hp : place it.get = .child ∨ place it.get = .attr := by
      cases hg' : it.get <;> simp [hg', scalar, place] at hs hg ⊢
    rcases hp with hp | hp <;> simp only [itemText, hp] at h
    · have hne := trimmed_strip h
      unfold childText at h
      cases hk : e.kids.find? (fun k => decide (k.tag = nsGet N id ++ it.node)) with
      | none => rw [hk] at h; cases h
      | some k =>
        rw [hk] at h
        have hm := List.mem_of_find?_eq_some hk
        have ht := List.find?_some hk
        simp only [decide_eq_true_eq] at ht
        obtain ⟨_, _, _, hne⟩ := trimmed_strip h
        exact ⟨Or.inr ⟨it.node, hn, Or.inr ⟨k, hm, ⟨id, ht⟩, h⟩⟩, hne⟩
    · exact ⟨Or.inr ⟨it.node, hn, Or.inl ⟨_, ⟨id, rfl⟩, h⟩⟩, (given_some h).2⟩

theorem firstValue_text {strict : Bool} {it : Item Cls} {N : NsMap} {e : Xml} {ids : List Str}
    {v : Val Cls F} (h : firstValue strict it N e ids = some v) :
    ∃ id ∈ ids, ∃ t, itemText it (nsGet N id) e = some t ∧ denotes strict it t = some v := by
  induction ids with
  | nil => cases h
  | cons id ids ih =>
    simp only [firstValue] at h
    split at h
    · obtain ⟨i, hi, h⟩ := ih h; exact ⟨i, List.mem_cons_of_mem _ hi, h⟩
    · rename_i t ht
      split at h
      · obtain ⟨i, hi, h⟩ := ih h; exact ⟨i, List.mem_cons_of_mem _ hi, h⟩
      · rename_i w hw
        cases h
        exact ⟨id, by simp, t, ht, hw⟩

/-! ## One attribute -/

/-- What the reader of an item returns is in the element, if what is read from the children
is in them. -/
theorem said_item {strict : Bool} {N : NsMap} (hN : mergeNs N = N) {c : Cls} {t : Str} {as : List (Str × Str)} {x : Option Str} {ks : List Xml}
    (ih : ∀ k ∈ ks, ∀ (d : Cls) (ns : Str) (v : Val Cls F), parse fastkml strict k d ns N = .ok v → Said strict N k d v)
    {it : Item Cls} (hit : it ∈ fastkml.itemsOf c) {v : Val Cls F}
    (h : tryNs fastkml it strict N (.mk t as x ks) (kidsOf (parse fastkml strict) ks) it.nsIds = .ok (some v))
    (hg : it.get ≠ .subDtList) (hg' : it.get ≠ .coordsList) :
    SaidAttr strict N c (.mk t as x ks) (saidKids strict N ks) it.attr v := by
  have hR := fastkml_readOk c
  by_cases hs : scalar it.get = true
  · have ho := tryNs_scalar hs (hR.classes it hit) h
    obtain ⟨id, _, u, hu, hd⟩ := firstValue_text ho.symm
    obtain ⟨h1, h2⟩ := textFor_item hit hs hu
    exact .scalar h1 (tells_denotes h2 hd)
  · obtain ⟨pre, id, post, _, _, hk⟩ := tryNs_some.mp h
    have hn := fastkml_names c it hit
    simp only [namesB, Bool.and_eq_true, List.all_eq_true] at hn
    have hn := hn.2
    have hkid : ∀ d k w, .cls d ∈ it.classes → k ∈ ks → k.tag = nsGet N id ++ (fastkml.info d).tag →
        parse fastkml strict k d (nsGet N id) N = .ok w → FromChild N c (saidKids (F := F) strict N ks) it.attr w := by
      intro d k w hd hkm htag hp
      have := hn _ hd
      simp only [decide_eq_true_eq] at this
      exact ⟨_, mem_saidKids hkm, d, this, ⟨id, htag⟩, ih k hkm d _ _ hp⟩
    cases hget : it.get <;> simp only [hget, scalar, place] at hs
    case subDtList => exact absurd hget hg
    case coordsList => exact absurd hget hg'
    case coordinates =>
      simp only [getKwarg, hget, getCoordinates] at hk
      cases x with
      | none => simp [wrap, Xml.text] at hk
      | some s =>
        simp only [Xml.text] at hk
        cases htu : tuplesOf (F := F) (latlons s) with
        | none => rw [htu] at hk; cases strict <;> simp [handleError, wrap] at hk
        | some l =>
          rw [htu] at hk
          simp only [wrap, Except.ok.injEq, Option.some.injEq] at hk
          subst hk
          obtain ⟨h1, h2⟩ := fastkml_coordsClass c it hit hget
          exact .coords h1 h2 rfl htu
    case xmlSub =>
      simp only [getKwarg, hget] at hk
      rcases getXmlSub_iff (e := .mk t as x ks) hk with ⟨h0, _⟩ | ⟨p, d, q, k, w, hcs, _, hf, hp, he⟩
      · cases h0
      · cases he
        have hm := List.mem_of_find?_eq_some hf
        have ht := List.find?_some hf
        simp only [decide_eq_true_eq] at ht
        exact .object (hkid d k v (by rw [hcs]; simp) hm ht hp)
    case xmlSubList =>
      simp only [getKwarg, hget] at hk
      split at hk
      · cases hk
      · rename_i vs hvs
        simp only [Except.ok.injEq, Option.some.injEq] at hk
        subst hk
        obtain ⟨vss, hall, rfl⟩ := getXmlSubList_iff (e := .mk t as x ks) hvs
        refine .objects fun w hw => ?_
        obtain ⟨us, hus, hwu⟩ := List.mem_flatten.mp hw
        obtain ⟨ty, hty, d, rfl, hd⟩ := all2_mem_right hall hus
        obtain ⟨k, hkm, hp⟩ := all2_mem_right hd hwu
        simp only [Xml.findall, Xml.kids, List.mem_filter, decide_eq_true_eq] at hkm
        exact hkid d k w hty hkm.1 hkm.2 hp
    all_goals simp at hs

theorem fromChild_obj {strict : Bool} {N : NsMap} {c : Cls} {ks : List Xml} {a : Str} {w : Val Cls F}
    (h : FromChild N c (saidKids strict N ks) a w) : ∃ d ns nss as, w = .obj d ns nss as := by
  obtain ⟨k, hk, d, _, _, h⟩ := h
  obtain ⟨_, h2⟩ := saidKids_mem hk
  rw [h2] at h
  cases hk1 : k.1 with
  | mk t as x ks =>
    simp only [hk1, Said] at h
    obtain ⟨ns, nss, attrs, h, _⟩ := h
    exact ⟨d, ns, nss, attrs, h⟩

/-- Storing an argument adds nothing. -/
theorem said_normalise {strict : Bool} {N : NsMap} {c : Cls} {e : Xml} {ks : List Xml} {a : Str}
    {n : Norm} {v w : Val Cls F} (h : SaidAttr strict N c e (saidKids strict N ks) a v)
    (hn : normalise fastkml n v = .ok w) : SaidAttr strict N c e (saidKids strict N ks) a w := by
  cases n with
  | raw => cases hn; exact h
  | orNone =>
    simp only [normalise] at hn
    split at hn
    · cases hn
    · cases hn
      split
      · exact h
      · exact .nothing trivial
  | clean =>
    cases v <;> simp only [normalise, Except.ok.injEq, reduceCtorEq] at hn
    case none => subst hn; exact .nothing trivial
    case str s =>
      unfold cleanString at hn
      simp only at hn
      split at hn
      · subst hn; exact .nothing trivial
      · rename_i u heq
        subst hn
        split at heq
        · cases heq
        · split at heq
          · cases heq
          · rename_i hne
            cases heq
            have hne' : strip s ≠ [] := by intro hz; exact hne (by rw [hz]; rfl)
            cases h with
            | nothing h => simp only [Nothing] at h; subst h; exact absurd rfl hne'
            | scalar ht h =>
              refine .scalar ht ⟨hne', ?_⟩
              obtain ⟨_, h | h⟩ := h
              · exact Or.inr (by rw [h])
              · exact Or.inr (by rw [h, strip_idem])
            | object h => obtain ⟨_, _, _, _, h⟩ := fromChild_obj h; cases h
  | orEmpty =>
    cases v <;> simp only [normalise, Except.ok.injEq, reduceCtorEq] at hn <;> subst hn
    · exact .nothing rfl
    · exact h
  | listOr =>
    cases v <;> simp only [normalise, Except.ok.injEq, reduceCtorEq] at hn <;> subst hn
    · exact .nothing rfl
    · exact h
  | listNotNone =>
    cases v <;> simp only [normalise, Except.ok.injEq, reduceCtorEq] at hn <;> subst hn
    · exact .nothing rfl
    · exact h
  | coordsOr =>
    cases v <;> simp only [normalise, Except.ok.injEq, reduceCtorEq] at hn <;> subst hn
    · exact .nothing rfl
    · exact h
  | listTruthy =>
    cases v <;> simp only [normalise, Except.ok.injEq, reduceCtorEq] at hn
    case none => subst hn; exact .nothing rfl
    case list l =>
      split at hn
      · cases hn
      · rename_i r hr
        cases hn
        have hrl := keepTruthy_filter hr
        cases h with
        | nothing h => simp only [Nothing] at h; subst h; rw [hrl]; exact .nothing rfl
        | scalar ht h => cases h
        | object h => obtain ⟨_, _, _, _, h⟩ := fromChild_obj h; cases h
        | objects h =>
          refine .objects fun w hw => h w ?_
          rw [hrl] at hw
          exact (List.mem_filter.mp hw).1

/-! ## Objects -/

theorem parse_said {strict : Bool} {N : NsMap} (hN : mergeNs N = N) (e : Xml) : ∀ (c : Cls) (ns : Str) (v : Val Cls F),
    parse fastkml strict e c ns N = .ok v → Said strict N e c v := by
  induction e using Xml.ind with
  | h t as x ks ih =>
    intro c ns v h
    have hR := fastkml_readOk c
    obtain ⟨r, hr, hc⟩ := parse_ok hR h
    rw [hN] at hr
    have hkw : KwOk fastkml anyPt (fastkml.itemsOf c) (kwOf r (fastkml.itemsOf c)) :=
      kwOk_of_getKwargs (strict := strict) (nss := N) (e := .mk t as x ks) (kids := kidsOf (parse fastkml strict) ks)
        (by
          intro k hk
          simp only [kidsOf, List.mem_map] at hk
          obtain ⟨k', hk', rfl⟩ := hk
          exact kidOk_parse fastkml_readOk k' fun d _ => coordsOk_any d) (coordsOk_any _) hR.attrs
        ((getKwargs_ok hR.attrs).mpr ⟨r, hr, rfl⟩)
    obtain ⟨ex, sp, sl, hex, hsp, hsl, hv⟩ := construct_ok hc
    rw [extras_nil hR hkw] at hex
    subst hex
    rw [Said]
    refine ⟨ns, _, _, hv, ?_⟩
    intro a w hw
    rw [List.nil_append, List.mem_append] at hw
    rcases hw with hw | hw
    · have hsp' : (fastkml.info c).special = .track ∧ a = s% "track_items" ∧ ∃ l, w = .items l ∧ sp = [(a, w)] := by
        cases hs : (fastkml.info c).special <;> rw [hs] at hsp <;> simp only [specialInit] at hsp
        · simp at hsp; subst hsp; cases hw
        · split at hsp
          · cases hsp
          · split at hsp
            · cases hsp
            · simp at hsp; subst hsp; cases hw
          · cases hsp
        · split at hsp
          · cases hsp
          · rename_i l hl
            simp at hsp; subst hsp
            simp only [List.mem_singleton, Prod.mk.injEq] at hw
            obtain ⟨rfl, rfl⟩ := hw
            exact ⟨rfl, rfl, l, rfl, rfl⟩
        · split at hsp
          · cases hsp
          · simp at hsp; subst hsp; cases hw
        · simp at hsp; subst hsp; cases hw
      obtain ⟨hs, rfl, l, rfl, rfl⟩ := hsp'
      have hct := fastkml_trackClass c hs
      subst hct
      rw [hv] at h
      have hrows := C33_rows h
      rw [hN] at hrows
      have hl : rows ((s% "track_items", (Val.items l : Val Cls F)) :: sl) = l := rfl
      simp only [List.nil_append, List.singleton_append] at hrows
      rw [hl] at hrows
      split at hrows
      · exact .nothing hrows
      · exact .rows rfl rfl hrows.1
    · obtain ⟨n, hn, hno⟩ := fillSlots_mem hsl hw
      refine said_normalise ?_ hno
      by_cases hi : ∃ it ∈ fastkml.itemsOf c, it.attr = a
      · obtain ⟨it, hit, rfl⟩ := hi
        rw [kwGet, dget_kwOf hR.attrs hit]
        cases hri : r it with
        | none => exact .nothing trivial
        | some v' =>
          have hri' := hr it hit
          rw [hri] at hri'
          obtain ⟨g1, g2⟩ : it.get ≠ .subDtList ∧ it.get ≠ .coordsList := by
            have hno : ∀ it' ∈ fastkml.itemsOf c, (it'.attr, n) ∈ (fastkml.info c).slots → it'.get ≠ .subDtList ∧ it'.get ≠ .coordsList := by
              have key : ∀ c ∈ Cls.all, ∀ it ∈ fastkml.itemsOf c, it.attr ∈ (fastkml.info c).slots.map Prod.fst →
                it.get ≠ .subDtList ∧ it.get ≠ .coordsList := by decide +kernel
              exact fun it' hit' hm => key c (Cls.mem_all c) it' hit' (List.mem_map.mpr ⟨_, hm, rfl⟩)
            exact hno it hit hn
          exact said_item hN ih hit hri' g1 g2
      · rw [kwGet_none hkw fun it hit he => hi ⟨it, hit, he⟩]
        exact .nothing trivial

/-- **C72.** Every value of an object that is read is in the element that it is read from: a
text, number, boolean, enumeration or time is what the text of the element, of a child or of
an XML attribute says that has the name belonging to the attribute; an object is read from
such a child, and holds in turn nothing but what is in the child. -/
theorem C72_read {strict : Bool} {e : Xml} {c : Cls} {ns : Str} {nss : NsMap} {v : Val Cls F}
    (h : parse fastkml strict e c ns nss = .ok v) : Said strict (mergeNs nss) e c v := by
  refine parse_said (mergeNs_idem nss) e c ns v ?_
  have : parse (F := F) fastkml strict e c ns (mergeNs nss) = parse fastkml strict e c ns nss := by
    rw [parse_eq, parse_eq]
    simp only [parseStep, mergeNs_idem]
  rw [this, h]

/-! ## Texts -/

theorem said_occurs {strict : Bool} {N : NsMap} (e : Xml) : ∀ (c : Cls) (v : Val Cls F), Said strict N e c v →
    ∀ s, Inside (.str s) v → s = [] ∨ Occurs e s := by
  induction e using Xml.ind with
  | h t as x ks ih =>
    intro c v h s hin
    rw [Said] at h
    obtain ⟨ns, nss, attrs, rfl, h⟩ := h
    have hchild : ∀ a w, FromChild N c (saidKids (F := F) strict N ks) a w → Inside (.str s) w →
        s = [] ∨ Occurs (.mk t as x ks) s := by
      rintro a w ⟨k, hk, d, _, _, hw⟩ hi
      obtain ⟨h1, h2⟩ := saidKids_mem hk
      rw [h2] at hw
      rcases ih k.1 h1 d w hw s hi with h0 | ⟨d', u, hd', hu⟩
      · exact Or.inl h0
      · exact Or.inr ⟨d', u, .kid h1 hd', hu⟩
    cases hin with
    | attr hm hi =>
      rename_i a w
      cases h a w hm with
      | nothing hno =>
        cases w <;> simp only [Nothing] at hno
        case none => cases hi
        case str u => cases hi; exact Or.inl hno
        case coords => cases hi
        case items => cases hi
        case list l => subst hno; cases hi with | member hm _ => cases hm
      | scalar ht htell =>
        rename_i u
        cases w <;> simp only [Tells] at htell <;> cases hi
        obtain ⟨_, hsu⟩ := htell
        right
        rcases ht with ⟨_, ht⟩ | ⟨n, _, ⟨q, _, ht⟩ | ⟨k, hk, _, ht⟩⟩
        · obtain ⟨y, hy, rfl, _⟩ := trimmed_strip ht
          refine ⟨_, y, .refl _, Or.inl hy, Or.inr ?_⟩
          rcases hsu with h | h
          · exact h
          · rw [h, strip_idem]
        · exact ⟨_, u, .refl _, Or.inr ⟨q, (given_some ht).1⟩, hsu⟩
        · obtain ⟨y, hy, rfl, _⟩ := trimmed_strip ht
          refine ⟨k, y, .kid hk (.refl _), Or.inl hy, Or.inr ?_⟩
          rcases hsu with h | h
          · exact h
          · rw [h, strip_idem]
      | object ho => exact hchild a w ho hi
      | objects ho =>
        cases hi with
        | member hm hi => exact hchild a _ (ho _ hm) hi
      | coords => cases hi
      | rows => cases hi

/-- **C72, texts.** Every text in an object that is read, at any depth, is empty or occurs in
the document: it is the text of an element or the value of an XML attribute, perhaps without
the white space around it. -/
theorem C72_strings {strict : Bool} {e : Xml} {c : Cls} {ns : Str} {nss : NsMap} {v : Val Cls F}
    (h : parse fastkml strict e c ns nss = .ok v) : ∀ s, Inside (.str s) v → s = [] ∨ Occurs e s :=
  said_occurs e c v (C72_read h)

theorem lstrip_mem {s : Str} {x : Char} (h : x ∈ lstrip s) : x ∈ s := by
  unfold lstrip at h
  exact (List.dropWhile_sublist _).subset h

theorem strip_mem {s : Str} {x : Char} (h : x ∈ strip s) : x ∈ s := by
  unfold strip at h
  exact lstrip_mem (List.mem_reverse.mp (lstrip_mem (List.mem_reverse.mp h)))

/-- **C72, characters.** What is true of all characters in the texts and XML attributes of a
document is true of all characters in the texts of the object. -/
theorem C72_characters {strict : Bool} {e : Xml} {c : Cls} {ns : Str} {nss : NsMap} {v : Val Cls F}
    (h : parse fastkml strict e c ns nss = .ok v) {P : Char → Prop}
    (hP : ∀ d, Sub e d → (∀ t, d.text = some t → ∀ x ∈ t, P x) ∧ ∀ q t, dget q d.attrs = some t → ∀ x ∈ t, P x) :
    ∀ s, Inside (.str s) v → ∀ x ∈ s, P x := by
  intro s hs x hx
  rcases C72_strings h s hs with rfl | ⟨d, t, hd, ht, hst⟩
  · cases hx
  · have hxt : x ∈ t := by
      rcases hst with rfl | rfl
      · exact hx
      · exact strip_mem hx
    rcases ht with ht | ⟨q, ht⟩
    · exact (hP d hd).1 t ht x hxt
    · exact (hP d hd).2 q t ht x hxt

/-! ## Writing what was read -/

theorem dset_legal {a b : Str} {m : NsMap} (hb : LegalNs b) (h : ∀ p ∈ m, LegalNs p.2) : ∀ p ∈ dset a b m, LegalNs p.2 := by
  induction m with
  | nil => intro p hp; simp [dset] at hp; rw [hp]; exact hb
  | cons q m ih =>
    obtain ⟨x, y⟩ := q
    intro p hp
    simp only [dset] at hp
    split at hp
    · rcases List.mem_cons.mp hp with rfl | hp
      · exact hb
      · exact h p (List.mem_cons_of_mem _ hp)
    · rcases List.mem_cons.mp hp with rfl | hp
      · exact h _ (by simp)
      · exact ih (fun p hp => h p (List.mem_cons_of_mem _ hp)) p hp

theorem default_legal : ∀ p ∈ defaultNameSpaces, LegalNs p.2 := by
  have : ∀ p ∈ defaultNameSpaces, legalNsB p.2 = true := by decide +kernel
  exact fun p hp => legalNsB_sound (this p hp)

theorem merge_legal {m : NsMap} (h : ∀ p ∈ m, LegalNs p.2) : ∀ p ∈ mergeNs m, LegalNs p.2 := by
  have : ∀ (m n : NsMap), (∀ p ∈ m, LegalNs p.2) → (∀ p ∈ n, LegalNs p.2) → ∀ p ∈ dupdate n m, LegalNs p.2 := by
    intro m
    induction m with
    | nil => intro n _ hn; exact hn
    | cons q m ih =>
      obtain ⟨x, y⟩ := q
      intro n hm hn
      simp only [dupdate, List.foldl_cons] at ih ⊢
      exact ih _ (fun p hp => hm p (List.mem_cons_of_mem _ hp)) (dset_legal (hm (x, y) (by simp)) hn)
  exact this m _ h default_legal

/-- One object. -/
theorem legal_here {strict : Bool} {e : Xml} (he : LegalDoc e) {c : Cls} {ns : Str} {nss : NsMap} (hns : LegalNs ns)
    (hnss : ∀ p ∈ mergeNs nss, LegalNs p.2) {c' : Cls} {ns' : Str} {nss' : NsMap} {attrs : List (Str × Val Cls F)}
    (h : parse fastkml strict e c ns nss = .ok (.obj c' ns' nss' attrs)) : Legal fastkml c' ns' nss' attrs := by
  obtain ⟨hty, as, hv⟩ := parse_typed fastkml_readOk h
  cases hv
  have hkind := (typed_obj.mp hty).1
  have hit : ∀ it ∈ fastkml.itemsOf c, ∀ s, attr it.attr attrs = .str s → ∃ g, scalar it.get = true ∧ (s = [] ∨
      ∃ id t, itemText it (nsGet (mergeNs nss) id) e = some t ∧ (s = t ∨ s = strip t) ∧ g = ()) := by
    intro it hit s hs
    have hk := hkind it hit
    rw [← attr_eq, hs] at hk
    have hsc : scalar it.get = true := by
      have hno : it.get = .subDtList ∨ it.get = .coordsList → False := by
        intro hg
        have hlay := ((allSettled_parse h) _ _ _ _ .self).layout
        have hnone : dget it.attr attrs = none := by
          rw [dget_eq_none, hlay]
          exact fastkml_computed c it hit hg
        unfold attr at hs
        rw [hnone] at hs
        cases hs
      cases hg : it.get <;> simp [kindOk, hg, isInst] at hk hno <;> rfl
    refine ⟨(), hsc, ?_⟩
    have hst := C14_scalar strict e c ns nss _ _ _ attrs h it hit hsc
    rw [hs] at hst
    cases hf : firstValue (F := F) strict it (mergeNs nss) e it.nsIds with
    | none =>
      rw [hf] at hst
      simp only [stored] at hst
      split at hst <;> cases hst
      exact Or.inl rfl
    | some w =>
      obtain ⟨id, _, t, ht, hd⟩ := firstValue_text hf
      rw [hf] at hst
      right
      refine ⟨id, t, ht, ?_, rfl⟩
      have hw : ∀ u, w = .str u → u = t := by
        rintro u rfl
        cases hg : it.get <;> simp only [denotes, hg] at hd
        case nodeText => cases hd; rfl
        case subText => cases hd; rfl
        case attrText => cases hd; rfl
        all_goals try cases hd
        all_goals try (rw [Option.map_eq_some_iff] at hd; obtain ⟨_, _, hd⟩ := hd; cases hd)
        all_goals
          split at hd
          · rw [Option.map_eq_some_iff] at hd; obtain ⟨_, _, hd⟩ := hd; cases hd
          · cases hd
      cases w <;> simp only [stored, reduceCtorEq] at hst
      rename_i u
      have := hw u rfl
      subst this
      split at hst
      · cases hst; exact Or.inl rfl
      · split at hst
        · cases hst
        · rename_i y hy
          cases hst
          obtain ⟨z, hz, rfl, _⟩ := trimmed_strip hy
          cases hz
          exact Or.inr rfl
  have hsub : ∀ {s t : Str} {P : Char → Prop}, (s = t ∨ s = strip t) → (∀ x ∈ t, P x) → ∀ x ∈ s, P x := by
    rintro s t P (rfl | rfl) hp x hx
    · exact hp x hx
    · exact hp x (strip_mem hx)
  refine ⟨hns, hnss, ?_, ?_⟩
  · intro it hi hp s hs
    obtain ⟨_, hsc, rfl | ⟨id, t, ht, hst, _⟩⟩ := hit it hi s hs
    · intro x hx; cases hx
    · have hp' : place it.get = .text ∨ place it.get = .child := by
        cases hg : it.get <;> simp [hg, scalar, place] at hsc hp ⊢
      refine hsub hst ?_
      rcases hp' with hp' | hp' <;> simp only [itemText, hp'] at ht <;> obtain ⟨y, hy, rfl, _⟩ := trimmed_strip ht
      · exact fun x hx => (he e (.refl _)).1 y hy x (strip_mem hx)
      · unfold childText at hy
        split at hy
        · cases hy
        · rename_i k hk
          have hm := List.mem_of_find?_eq_some hk
          exact fun x hx => (he k (.kid hm (.refl _))).1 y hy x (strip_mem hx)
  · intro it hi hp s hs
    obtain ⟨_, hsc, rfl | ⟨id, t, ht, hst, _⟩⟩ := hit it hi s hs
    · intro x hx; cases hx
    · refine hsub hst ?_
      simp only [itemText, hp] at ht
      exact (he e (.refl _)).2 _ t (given_some ht).1

/-- **C72, legality.** What is read from a document whose texts can be written as XML text can
be written as XML text. -/
theorem C72_legal {strict : Bool} {e : Xml} (he : LegalDoc e) {c : Cls} {ns : Str} {nss : NsMap} (hns : LegalNs ns)
    (hnss : ∀ p ∈ nss, LegalNs p.2) {v : Val Cls F} (h : parse fastkml strict e c ns nss = .ok v) :
    Everywhere (Legal fastkml) v := by
  have hm := merge_legal hnss
  intro c' ns' nss' as hin
  rcases parse_inside e h hin with rfl | ⟨k, hk, d, hd, _, ⟨_, it, _, _, _, id, _, hid⟩, hp⟩
  · exact legal_here he hns hm h
  · refine legal_here (fun x hx => he x (.kid hk (Sub.trans hd hx))) ?_ (by rw [mergeNs_idem]; exact hm) hp
    rw [hid]; exact nsGet_legal hm id

/-! ## What lasts -/

theorem fastkml_times (c : Cls) : ∀ it ∈ fastkml.itemsOf c, it.get = .subDt → it.node ∈ timeNames := by
  have key : ∀ c ∈ Cls.all, ∀ it ∈ fastkml.itemsOf c, it.get = .subDt → it.node ∈ timeNames := by decide +kernel
  exact key c (Cls.mem_all c)

theorem fastkml_schemaId : ∃ it ∈ fastkml.itemsOf .Schema, it.attr = s% "id" ∧ it.node = s% "id" ∧ it.get = .attrText ∧
    ident .Schema it = false := by decide +kernel

theorem fastkml_slotsNodup (c : Cls) : ((if (fastkml.info c).special = .track then [s% "track_items"] else []) ++
    (fastkml.info c).slots.map Prod.fst).Nodup := by
  have key : ∀ c ∈ Cls.all, ((if (fastkml.info c).special = .track then [s% "track_items"] else []) ++
    (fastkml.info c).slots.map Prod.fst).Nodup := by decide +kernel
  exact key c (Cls.mem_all c)

theorem gathered_kid {α : Type} {f : Xml → Option α} {N : NsMap} {e : Xml} {node : Str} {ids : List Str} {x : α}
    (h : x ∈ gathered f N e node ids) : ∃ k ∈ e.kids, KnownAs N node k.tag ∧ f k = some x := by
  induction ids with
  | nil => cases h
  | cons id ids ih =>
    simp only [gathered] at h
    split at h
    · exact ih h
    · obtain ⟨k, hk, hx⟩ := List.mem_filterMap.mp h
      simp only [Xml.findall, List.mem_filter, decide_eq_true_eq] at hk
      exact ⟨k, hk.1, ⟨id, hk.2⟩, hx⟩

theorem denotes_dt {strict : Bool} {it : Item Cls} {t : Str} {k : KmlDateTime} (h : denotes (F := F) strict it t = some (.dt k)) :
    it.get = .subDt ∧ KmlDateTime.parse (PyExt.arrowGet F) t = some k := by
  cases hg : it.get <;> simp only [denotes, hg] at h
  case subDt =>
    rw [Option.map_eq_some_iff] at h
    obtain ⟨k', hk, he⟩ := h
    cases he
    exact ⟨rfl, hk⟩
  all_goals try cases h
  all_goals try (rw [Option.map_eq_some_iff] at h; obtain ⟨_, _, h⟩ := h; cases h)
  all_goals
    split at h
    · rw [Option.map_eq_some_iff] at h; obtain ⟨_, _, h⟩ := h; cases h
    · cases h

/-- One object. -/
theorem lasting_here {strict : Bool} {e : Xml} {c : Cls} {N : NsMap} (hm : mergeNs N = N)
    (hgx : nsGet N (s% "gx") ≠ nsGet N (s% "kml")) (he : LastingDoc F N e)
    (ht : KnownAs N (fastkml.info c).tag e.tag) {attrs : List (Str × Val Cls F)} {ns : Str} (hns : ns = nsGet N (fastkml.info c).nsid)
    (h : parse fastkml strict e c ns N = .ok (.obj c ns N attrs)) : Lasting c ns N attrs := by
  have hsaid := C72_read h
  rw [hm] at hsaid
  have hset := (allSettled_parse h) _ _ _ _ .self
  have hnd : (attrs.map Prod.fst).Nodup := by rw [hset.layout]; exact fastkml_slotsNodup c
  have hattr : ∀ a w, (a, w) ∈ attrs → attr a attrs = w := by
    intro a w hw
    unfold attr
    rw [dget_of_mem hnd hw]; rfl
  have hstep : ∀ a w, (a, w) ∈ attrs → SaidAttr strict N c e (saidKids strict N e.kids) a w := by
    cases e with
    | mk t as x ks =>
      rw [Said] at hsaid
      obtain ⟨_, _, _, hv, hst⟩ := hsaid
      cases hv
      exact hst
  have hrows : ∀ a l, (a, .items l) ∈ attrs → l = [] ∨
      (c = .Track ∧ Rows ((timesOf F N e).map some) (positionsOf N e) (anglesOf N e) l) := by
    intro a l hl
    cases hstep a _ hl with
    | nothing h0 => exact Or.inl h0
    | scalar _ h0 => cases h0
    | object h0 => obtain ⟨_, _, _, _, h0⟩ := fromChild_obj h0; cases h0
    | rows hc _ h0 => exact Or.inr ⟨hc, h0⟩
  refine ⟨?_, ?_, ?_, ?_, ?_⟩
  · intro a k hk
    have hv := hattr a _ hk
    have hslot : a ∈ (fastkml.info c).slots.map Prod.fst := by
      have hmem : a ∈ attrs.map Prod.fst := List.mem_map.mpr ⟨_, hk, rfl⟩
      rw [hset.layout, List.mem_append] at hmem
      rcases hmem with hmem | hmem
      · split at hmem
        · rename_i hsp
          simp only [List.mem_singleton] at hmem
          subst hmem
          have := (typed_obj.mp (parse_typed fastkml_readOk h).1).2.1 hsp
          unfold trackOk at this
          rw [hv] at this
          cases this
        · cases hmem
      · exact hmem
    obtain ⟨⟨a', n⟩, hn, rfl⟩ := List.mem_map.mp hslot
    by_cases hi : ∃ it ∈ fastkml.itemsOf c, it.attr = a'
    · obtain ⟨it, hit, rfl⟩ := hi
      by_cases hsc : scalar it.get = true
      · have hst := C14_scalar strict e c ns N _ _ _ attrs h it hit hsc
        rw [hv, hm] at hst
        cases hf : firstValue (F := F) strict it N e it.nsIds with
        | none => rw [hf] at hst; simp only [stored] at hst; split at hst <;> cases hst
        | some w =>
          rw [hf] at hst
          have hw : w = .dt k := by
            cases w <;> simp only [stored, reduceCtorEq] at hst
            · split at hst
              · cases hst
              · split at hst <;> cases hst
            · exact hst.symm
          subst hw
          obtain ⟨id, _, t, ht', hd⟩ := firstValue_text hf
          obtain ⟨hg, hp⟩ := denotes_dt hd
          simp only [itemText, hg, place] at ht'
          obtain ⟨y, hy, rfl, _⟩ := trimmed_strip ht'
          unfold childText at hy
          split at hy
          · cases hy
          · rename_i k' hk'
            have hm' := List.mem_of_find?_eq_some hk'
            have htag := List.find?_some hk'
            simp only [decide_eq_true_eq] at htag
            exact (he k' (.kid hm' (.refl _))).years it.node (fastkml_times c it hit hg) ⟨id, htag⟩ y k hy (Or.inr hp)
      · exfalso
        have hkind := (typed_obj.mp (parse_typed fastkml_readOk h).1).1 it hit
        rw [← attr_eq, hv] at hkind
        have hno : it.get = .subDtList ∨ it.get = .coordsList → False := by
          intro hg
          exact fastkml_computed c it hit hg (by rw [← hset.layout]; exact List.mem_map.mpr ⟨_, hk, rfl⟩)
        cases hg : it.get <;> simp [kindOk, hg, isInst, scalar, place] at hkind hno hsc
    · have := hset.unregistered a' n hn (fun it hit he => hi ⟨it, hit, he⟩)
      rw [hv] at this
      cases n <;> cases this
  · intro a l hl r hr
    rcases hrows a l hl with rfl | ⟨rfl, hlen, hrow⟩
    · cases hr
    · obtain ⟨i, hi⟩ := List.getElem?_of_mem hr
      have hlt : i < (positionsOf (F := F) N e).length := by
        rw [← hlen]
        exact (List.getElem?_eq_some_iff.mp hi).1
      have hpos := hrow i _ (List.getElem?_eq_getElem hlt)
      rw [hi] at hpos
      cases hpos
      refine ⟨?_, ?_⟩
      · intro k hk
        simp only at hk
        rw [Option.join_eq_some_iff] at hk
        have hk' := List.mem_of_getElem? hk
        obtain ⟨k0, hk0, he0⟩ := List.mem_map.mp hk'
        cases he0
        obtain ⟨x, hx, hkn, htx⟩ := gathered_kid hk0
        unfold timeIn at htx
        rw [Option.bind_eq_some_iff] at htx
        obtain ⟨s, hs, hp⟩ := htx
        exact (he x (.kid hx (.refl _))).years (s% "when") (by decide) hkn s k hs (Or.inl hp)
      · have hm' := List.getElem_mem hlt
        obtain ⟨x, hx, hkn, hp⟩ := gathered_kid hm'
        exact (he x (.kid hx (.refl _))).positions hkn _ hp
  · intro a l hl hno
    rcases hrows a l hl with rfl | ⟨rfl, _⟩
    · obtain ⟨r, hr, _⟩ := hno; cases hr
    · rw [hns]; exact hgx
  · intro a l hl
    cases hstep a _ hl with
    | nothing h0 => simp only [Nothing] at h0; subst h0; intro p hp; cases hp
    | scalar _ h0 => cases h0
    | object h0 => obtain ⟨_, _, _, _, h0⟩ := fromChild_obj h0; cases h0
    | coords hc _ hs hl =>
      subst hc
      exact (he e (.refl _)).tuples ht _ hs l hl
  · rintro rfl
    obtain ⟨it, hit, ha, hnode, hg, hid⟩ := fastkml_schemaId
    have hst := C14_scalar strict e .Schema ns N _ _ _ attrs h it hit (by rw [hg]; rfl)
    rw [ha, hid, hm] at hst
    cases hf : firstValue (F := F) strict it N e it.nsIds with
    | none =>
      exfalso
      have hR := fastkml_readOk .Schema
      rw [parse_eq] at h
      simp only [parseStep] at h
      split at h
      · cases h
      · rename_i kw hkw
        obtain ⟨r, hr, hkr⟩ := (getKwargs_ok hR.attrs).mp hkw
        have h1 := tryNs_scalar (by rw [hg]; rfl) (hR.classes it hit) (hr it hit)
        rw [hm, hf] at h1
        have hd := dget_kwOf (r := r) hR.attrs hit
        rw [h1, ha, ← hkr] at hd
        have hk : kwGet (s% "id") kw = .none := by unfold kwGet; rw [hd]; rfl
        have := C49_schema_error (ns := some ns) (nss := N) (Or.inl hk)
        simp only [init, Option.getD] at this
        rw [hm, this] at h
        cases h
    | some w =>
      obtain ⟨id, _, t, ht', hd⟩ := firstValue_text hf
      simp only [denotes, hg] at hd
      cases hd
      rw [hf] at hst
      simp only [itemText, hg, place] at ht'
      obtain ⟨h1, h2⟩ := given_some ht'
      rw [hst]
      simp only [stored, Bool.false_eq_true, if_false, trimmed]
      rw [if_neg ((he e (.refl _)).ids ht _ ⟨id, by rw [hnode]⟩ t h1 h2)]
      simp

/-- **C72, content that lasts.** The conditions under which reopening loses nothing but empty
objects (C60) hold for every object that is read from a document that meets them. -/
theorem C72_lasting {strict : Bool} {e : Xml} {c : Cls} {N : NsMap} (hN : NsOk N) (hm : mergeNs N = N)
    (hgx : nsGet N (s% "gx") ≠ nsGet N (s% "kml")) (hs : Standard N e) (he : LastingDoc F N e)
    (ht : KnownAs N (fastkml.info c).tag e.tag) {v : Val Cls F}
    (h : parse fastkml strict e c (nsGet N (fastkml.info c).nsid) N = .ok v) :
    Everywhere (fun c ns nss attrs => Lasting c ns nss attrs) v := by
  intro c' ns' nss' as hin
  obtain ⟨hnss, hns⟩ := home_parse hN hm hs h c' ns' nss' as hin
  subst hnss
  rcases parse_inside e h hin with rfl | ⟨k, hk, d, hd, htag, ⟨_, it, _, _, _, id, _, hid⟩, hp⟩
  · obtain ⟨rfl, _⟩ := settled_parse h
    subst hns
    exact lasting_here hm hgx he ht rfl h
  · rw [hm] at hp hid
    refine lasting_here hm hgx (fun x hx => he x (.kid hk (Sub.trans hd hx))) ⟨id, ?_⟩ hns hp
    rw [htag, hid]

/-- **C72, reopening.** A document whose texts are legal, read with `from_string`, can always
be written as a string, and the string gives the same object except for empty ones
(`Spec.prune`): nothing has to be required of the texts of the object, as in `C67_reopen`. -/
theorem C72_reopen [LawfulExt F] [AsciiExt F] {W : Etree} (hW : Faithful W) {strict : Bool} {t : Str} {e : Xml} (hf : W.fromstring t = .ok e)
    (he : LegalDoc e) {c : Cls} {M : NsMap} (hM : ∀ p ∈ M, LegalNs p.2) (h0 : nsGet (mergeNs M) [] = [])
    (h1 : nsGet (mergeNs M) (s% "kml") ≠ []) (hs : Standard (mergeNs M) e) {v : Val Cls F}
    (h : fromString W strict c none M t = .ok v) (hl : Everywhere (fun c ns nss attrs => Lasting c ns nss attrs) v) (pp : Bool) :
    ∃ t', toString W pp ⟨none, .normal⟩ v = .ok t' ∧
      ∀ strict', fromString W strict' c none M t' = .ok (prune v) := by
  refine C67_reopen hW hf (fun p hp => legalNs_form (hM p hp)) h0 h1 hs h hl ?_ pp
  have h' : fromElement fastkml strict c none M e = .ok v := by
    simp only [fromString, hf] at h
    split at h
    · cases h
    · rename_i hv
      cases h
      exact hv
  exact C72_legal he (nsGet_legal (merge_legal hM) _) (merge_legal hM) h'

/-- **C72, files.** The same for `KML.parse` and `KML.write`. -/
theorem C72_reopen_file [LawfulExt F] [AsciiExt F] {W : Etree} (hW : Faithful W) {fs : FS} {p : Str × Str} {strict : Bool} {val : Option Bool}
    {root : Xml} (hload : loadRoot W fs p strict val = .ok root) (he : LegalDoc root)
    {n : Str} (hn : LegalNs n) (hn0 : n ≠ []) (hr : root.tag = n ++ s% "kml") {nss : Option NsMap}
    (hd : ((nss.getD []).map Prod.fst).Nodup) (hN : ∀ p ∈ nss.getD [], LegalNs p.2) (h0 : nsGet (mergeNs (nss.getD [])) [] = [])
    (hs : Standard (mergeNs (dset (s% "kml") n (nss.getD []))) root) {v : Val Cls F}
    (h : (kmlParse W fs p none nss strict val).1 = .ok v)
    (hl : Everywhere (fun c ns nss attrs => Lasting c ns nss attrs) v)
    (q : Str × Str) (hq : ¬ KmzName q.2) (pp : Bool) :
    ∃ fs', kmlWrite W fs q pp ⟨none, .normal⟩ v = (fs', .ok ()) ∧
      ∀ strict' val', (∀ e, ser fastkml ⟨none, .normal⟩ v = .ok e → Passes W strict' val' e) →
        (kmlParse W fs' q none nss strict' val').1 = .ok (prune v) := by
  have hNo : NsOk (nss.getD []) := fun p hp => legalNs_form (hN p hp)
  refine C67_reopen_file hW hload (legalNs_form hn) hn0 hr hd hNo h0 hs h hl ?_ q hq pp
  have h' : parseRoot none nss strict root = .ok v := by
    simp only [kmlParse, hload] at h
    split at h
    · cases h
    · rename_i hv
      cases h
      exact hv
  obtain ⟨_, _, _, hnk, hpp⟩ := parseRoot_parse (F := F) (legalNs_form hn) hn0 hd hNo h0
  have h' := (hpp strict root hr).symm.trans h'
  rw [hnk] at h'
  exact C72_legal he hn (merge_legal (dset_legal hn hN)) h'

/-- **C72, without loss.** Everything that is needed for reopening can be seen in the
document: if its texts are legal, its names are in the namespaces of their classes and its
content lasts, then what is read from it can be written, and read again from what was
written: the same object except for empty ones. -/
theorem C72_lossless [LawfulExt F] [AsciiExt F] {W : Etree} (hW : Faithful W) {strict : Bool} {t : Str} {e : Xml}
    (hf : W.fromstring t = .ok e) {c : Cls} {M : NsMap} (hM : ∀ p ∈ M, LegalNs p.2) (h0 : nsGet (mergeNs M) [] = [])
    (h1 : nsGet (mergeNs M) (s% "kml") ≠ []) (hgx : nsGet (mergeNs M) (s% "gx") ≠ nsGet (mergeNs M) (s% "kml"))
    (ht : KnownAs (mergeNs M) (fastkml.info c).tag e.tag) (hs : Standard (mergeNs M) e) (he : LegalDoc e)
    (hl : LastingDoc F (mergeNs M) e) {v : Val Cls F} (h : fromString W strict c none M t = .ok v) (pp : Bool) :
    ∃ t', toString W pp ⟨none, .normal⟩ v = .ok t' ∧
      ∀ strict', fromString W strict' c none M t' = .ok (prune v) := by
  refine C72_reopen hW hf he hM h0 h1 hs h ?_ pp
  have h' : fromElement fastkml strict c none M e = .ok v := by
    simp only [fromString, hf] at h
    split at h
    · cases h
    · rename_i hv
      cases h
      exact hv
  have hN : NsOk (mergeNs M) := nsOk_merge (fun p hp => legalNs_form (hM p hp))
  refine C72_lasting (strict := strict) (c := c) hN (mergeNs_idem M) hgx hs hl ht ?_
  exact h'

/-- **C72, files without loss.** The same for `KML.parse` and `KML.write`. -/
theorem C72_lossless_file [LawfulExt F] [AsciiExt F] {W : Etree} (hW : Faithful W) {fs : FS} {p : Str × Str} {strict : Bool}
    {val : Option Bool} {root : Xml} (hload : loadRoot W fs p strict val = .ok root)
    {n : Str} (hn : LegalNs n) (hn0 : n ≠ []) (hr : root.tag = n ++ s% "kml") {nss : Option NsMap}
    (hd : ((nss.getD []).map Prod.fst).Nodup) (hN : ∀ p ∈ nss.getD [], LegalNs p.2) (h0 : nsGet (mergeNs (nss.getD [])) [] = [])
    (hgx : nsGet (mergeNs (dset (s% "kml") n (nss.getD []))) (s% "gx") ≠ n)
    (hs : Standard (mergeNs (dset (s% "kml") n (nss.getD []))) root) (he : LegalDoc root)
    (hl : LastingDoc F (mergeNs (dset (s% "kml") n (nss.getD []))) root) {v : Val Cls F}
    (h : (kmlParse W fs p none nss strict val).1 = .ok v) (q : Str × Str) (hq : ¬ KmzName q.2) (pp : Bool) :
    ∃ fs', kmlWrite W fs q pp ⟨none, .normal⟩ v = (fs', .ok ()) ∧
      ∀ strict' val', (∀ e, ser fastkml ⟨none, .normal⟩ v = .ok e → Passes W strict' val' e) →
        (kmlParse W fs' q none nss strict' val').1 = .ok (prune v) := by
  have hNo : NsOk (nss.getD []) := fun p hp => legalNs_form (hN p hp)
  refine C72_reopen_file hW hload he hn hn0 hr hd hN h0 hs h ?_ q hq pp
  have h' : parseRoot none nss strict root = .ok v := by
    simp only [kmlParse, hload] at h
    split at h
    · cases h
    · rename_i hv
      cases h
      exact hv
  obtain ⟨hM, _, _, hnk, hpp⟩ := parseRoot_parse (F := F) (legalNs_form hn) hn0 hd hNo h0
  have h' := (hpp strict root hr).symm.trans h'
  refine C72_lasting hM (mergeNs_idem _) ?_ hs hl ⟨s% "kml", ?_⟩ h'
  · change nsGet _ _ ≠ nsGet _ (fastkml.info .KML).nsid
    rw [hnk]; exact hgx
  · change _ = nsGet _ (fastkml.info .KML).nsid ++ _
    rw [hnk, hr]; rfl

/-! ## Cases -/

mutual
/-- A condition on all elements, computed. -/
def allNodes (f : Xml → Bool) : Xml → Bool
  | .mk tag as tx ks => f (.mk tag as tx ks) && allNodesL f ks
termination_by structural e => e
/-- For a list of elements. -/
def allNodesL (f : Xml → Bool) : List Xml → Bool
  | [] => true
  | k :: r => allNodes f k && allNodesL f r
termination_by structural l => l
end

theorem allNodesL_mem {f : Xml → Bool} : ∀ {l : List Xml}, allNodesL f l = true → ∀ k ∈ l, allNodes f k = true
  | [], _, _, hk => by cases hk
  | j :: l, h, k, hk => by
    simp only [allNodesL, Bool.and_eq_true] at h
    rcases List.mem_cons.mp hk with rfl | hk
    · exact h.1
    · exact allNodesL_mem h.2 k hk

theorem allNodes_sub {f : Xml → Bool} {e d : Xml} (hd : Sub e d) (h : allNodes f e = true) : f d = true := by
  induction hd with
  | refl e => cases e; simp only [allNodes, Bool.and_eq_true] at h; exact h.1
  | @kid e k d hk _ ih => cases e; simp only [allNodes, Bool.and_eq_true] at h; exact ih (allNodesL_mem h.2 k hk)

/-- `LegalDoc`, computed. -/
def legalNodeB (d : Xml) : Bool :=
  (match d.text with | some t => decide (LegalText t) | none => true) && d.attrs.all fun p => decide (LegalValue p.2)

theorem legalDoc_of {e : Xml} (h : allNodes legalNodeB e = true) : LegalDoc e := by
  intro d hd
  have h1 := allNodes_sub hd h
  simp only [legalNodeB, Bool.and_eq_true, List.all_eq_true, decide_eq_true_eq] at h1
  refine ⟨fun t ht => ?_, fun q t hq => h1.2 _ (dget_mem hq)⟩
  have := h1.1
  rw [ht] at this
  simpa using this

/-- `KnownAs`, computed. -/
def knownB (N : NsMap) (n tag : Str) : Bool := ([] :: N.map Prod.snd).any fun p => sameStr tag (p ++ n)

theorem knownB_of {N : NsMap} {n tag : Str} (h : KnownAs N n tag) : knownB N n tag = true := by
  obtain ⟨id, rfl⟩ := h
  unfold knownB
  rw [List.any_eq_true]
  refine ⟨nsGet N id, ?_, by rw [sameStr_iff]⟩
  unfold nsGet
  cases hd : dget id N with
  | none => simp
  | some p => exact List.mem_cons_of_mem _ (List.mem_map.mpr ⟨_, dget_mem hd, rfl⟩)

/-- `LastingNode`, computed. -/
def lastingNodeB (F : Type) [PyExt F] (N : NsMap) (d : Xml) : Bool :=
  (!(timeNames.any fun n => knownB N n d.tag) || match d.text with
    | none => true
    | some s => (match KmlDateTime.parse (PyExt.arrowGet F) s with | some k => fullYearB k | none => true) &&
      match KmlDateTime.parse (PyExt.arrowGet F) (strip s) with | some k => fullYearB k | none => true) &&
  (!knownB N (s% "coord") d.tag || match numbersIn (F := F) d with | some p => p.all (fun f => !PyExt.isNaN f) | none => true) &&
  (!knownB N (s% "coordinates") d.tag || match d.text with
    | none => true
    | some s => match tuplesOf (F := F) (latlons s) with
      | some l => l.all fun p => decide (p.length = 2) || decide (p.length = 3)
      | none => true) &&
  (!knownB N (s% "Schema") d.tag || d.attrs.all fun p => decide (p.2 = []) || decide (strip p.2 ≠ []))

theorem lastingDoc_of {N : NsMap} {e : Xml} (h : allNodes (lastingNodeB F N) e = true) : LastingDoc F N e := by
  intro d hd
  have h1 := allNodes_sub hd h
  simp only [lastingNodeB, Bool.and_eq_true] at h1
  obtain ⟨⟨⟨h1, h2⟩, h3⟩, h4⟩ := h1
  refine ⟨fun n hn hk s k hs hp => ?_, fun hk p hp f hf => ?_, fun hk s hs l hl p hp => ?_, fun hk q _ s hs hs0 => ?_⟩
  · have : (timeNames.any fun n => knownB N n d.tag) = true := List.any_eq_true.mpr ⟨n, hn, knownB_of hk⟩
    rw [this, hs] at h1
    simp only [Bool.not_true, Bool.false_or, Bool.and_eq_true] at h1
    rcases hp with hp | hp
    · rw [hp] at h1; exact fullYearB_of h1.1
    · rw [hp] at h1; exact fullYearB_of h1.2
  · rw [knownB_of hk, hp] at h2
    simp only [Bool.not_true, Bool.false_or, List.all_eq_true] at h2
    simpa using h2 f hf
  · rw [knownB_of hk, hs] at h3
    simp only [Bool.not_true, Bool.false_or, hl, List.all_eq_true] at h3
    simpa using h3 p hp
  · rw [knownB_of hk] at h4
    simp only [Bool.not_true, Bool.false_or, List.all_eq_true] at h4
    have := h4 _ (dget_mem hs)
    simpa [hs0] using this

/-- The document is opened as text and meets the hypotheses of `C72_lossless`. -/
def losslessB (b : Bool) (e : Xml) : Bool :=
  writableB e && standardB N0 (resolve [] (Lib.indent b e)) && allNodes legalNodeB (resolve [] (Lib.indent b e)) &&
    allNodes (lastingNodeB Fix N0) (resolve [] (Lib.indent b e)) &&
    decide ((resolve [] (Lib.indent b e)).tag = kmlNs ++ s% "kml") &&
    match fromElement (F := Fix) fastkml true .KML none [] (resolve [] (Lib.indent b e)) with
    | .ok _ => true
    | .error _ => false

/-- Such a document is opened as text, saved, and opened again. -/
theorem losslessB_reopen {b : Bool} {e : Xml} (h : losslessB b e = true) (pp : Bool) :
    ∃ v t', fromString (F := Fix) Lib.xmlLib true .KML none [] (Lib.print b e) = .ok v ∧
      toString Lib.xmlLib pp ⟨none, .normal⟩ v = .ok t' ∧
      ∀ strict', fromString Lib.xmlLib strict' .KML none [] t' = .ok (prune v) := by
  simp only [losslessB, Bool.and_eq_true, decide_eq_true_eq] at h
  obtain ⟨⟨⟨⟨⟨h1, h2⟩, h3⟩, h4⟩, h5⟩, h6⟩ := h
  have hr := Lib.read_print b e (writableB_sound h1)
  split at h6
  · rename_i v hv
    have hfs : fromString (F := Fix) Lib.xmlLib true .KML none [] (Lib.print b e) = .ok v := fromString_eq hr hv
    obtain ⟨t', h7, h8⟩ := C72_lossless (c := .KML) (M := []) Lib.xmlLib_faithful hr (by intro p hp; cases hp) (by decide) (by decide) (by decide)
      ⟨s% "kml", h5⟩ (standardB_of h2) (legalDoc_of h3) (lastingDoc_of h4) hfs pp
    exact ⟨v, t', hfs, h7, h8⟩
  · cases h6

example : losslessB true (openDoc []) = true := by decide +kernel
example : losslessB false (openDoc [kEl (s% "Placemark") [kEl (s% "Point") []], kEl (s% "Style") []]) = true := by
  decide +kernel

/-- The document is loaded from a file and meets the hypotheses of `C72_lossless_file`. -/
def losslessFileB (b : Bool) (e : Xml) : Bool :=
  writableB e && standardB (mergeNs (dset (s% "kml") kmlNs [])) (resolve [] (Lib.indent b e)) &&
    allNodes legalNodeB (resolve [] (Lib.indent b e)) &&
    allNodes (lastingNodeB Fix (mergeNs (dset (s% "kml") kmlNs []))) (resolve [] (Lib.indent b e)) &&
    decide ((resolve [] (Lib.indent b e)).tag = kmlNs ++ s% "kml") &&
    match parseRoot (F := Fix) none none true (resolve [] (Lib.indent b e)) with
    | .ok _ => true
    | .error _ => false

theorem losslessFileB_reopen {b : Bool} {e : Xml} (h : losslessFileB b e = true) (pp : Bool) {fs : FS} {p : Str × Str}
    (hf : fs p = some (.plain (utf8 (Lib.print b e)))) (q : Str × Str) (hq : ¬ KmzName q.2) :
    ∃ v fs', (kmlParse (F := Fix) Lib.xmlLib fs p none none true (some false)).1 = .ok v ∧
      kmlWrite Lib.xmlLib fs q pp ⟨none, .normal⟩ v = (fs', .ok ()) ∧
      (kmlParse Lib.xmlLib fs' q none none true (some false)).1 = .ok (prune v) := by
  simp only [losslessFileB, Bool.and_eq_true, decide_eq_true_eq] at h
  obtain ⟨⟨⟨⟨⟨h1, h2⟩, h3⟩, h4⟩, h0⟩, h6⟩ := h
  have hr := Lib.read_print b e (writableB_sound h1)
  have hld : Loads Lib.xmlLib (.plain (utf8 (Lib.print b e))) (resolve [] (Lib.indent b e)) := Or.inl (Lib.readFile_print hr)
  have hroot := loadRoot_of hf hld (indented_refl _) (strict := true) (v := some false) (Or.inl rfl)
  split at h6
  · rename_i v hv
    have hk : (kmlParse (F := Fix) Lib.xmlLib fs p none none true (some false)).1 = .ok v := by
      simp only [kmlParse, hroot, hv]
    obtain ⟨fs', h7, h5⟩ := C72_lossless_file Lib.xmlLib_faithful hroot (n := kmlNs) (nsGet_legal default_legal (s% "kml")) (by decide) h0
      (nss := none) (by decide) (by intro p hp; cases hp) (by decide) (by decide +kernel)
      (standardB_of h2) (legalDoc_of h3) (lastingDoc_of h4) hk q hq pp
    exact ⟨v, fs', hk, h7, h5 true (some false) fun _ _ => Or.inl rfl⟩
  · cases h6

example : losslessFileB true (openDoc []) = true := by decide +kernel

end Verif
