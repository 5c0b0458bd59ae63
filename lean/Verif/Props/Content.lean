import Verif.Lemmas.Content
import Verif.Props.Reading
import Verif.Props.Valid
import Verif.Props.Tracks

/-!
# C61: strict reading loses nothing that is supported

`Verif/Spec/Content.lean` says which attribute of an object holds which part of a KML
element.
-/

set_option linter.unusedSectionVars false
set_option linter.unusedSimpArgs false

namespace Verif

open Spec

variable {F : Type} [PyExt F]

theorem keptKids_map (ks : List Xml) : keptKids (F := F) ks = ks.map fun k => (k, fun c T v => Kept k c T v) := by
  induction ks with
  | nil => rfl
  | cons k ks ih => rw [keptKids, ih]; rfl

theorem kept_iff {e : Xml} {c : Cls} {T : QN} {v : Val Cls F} : Kept e c T v ↔
    ∃ ns nss attrs, v = .obj c ns nss attrs ∧ KeptStep c T e (keptKids e.kids) attrs := by
  cases e
  rw [Kept]
  rfl

/-- The value of a text is what it should be. -/
theorem means_of {c : Cls} {it : Item Cls} {K : Kind} (hk : kindFits it K = true) {s : Str} {v : Val Cls F}
    (hv : denotes true it s = some v) (b : Bool) : Means K s (stored b (some v)) := by
  cases K with
  | text =>
    simp only [kindFits, decide_eq_true_eq] at hk
    have : v = .str s := by
      rcases hk with h | h | h <;> simp [denotes, h] at hv <;> exact hv.symm
    subst this
    intro hs
    simp only [stored]
    cases b
    · simp only [Bool.false_eq_true, if_false, trimmed, if_neg hs]
      exact ⟨_, rfl, strip_idem s⟩
    · exact ⟨s, rfl, rfl⟩
  | bool =>
    simp only [kindFits, decide_eq_true_eq] at hk
    simp only [denotes, hk, Option.map_eq_some_iff] at hv
    obtain ⟨x, hx, rfl⟩ := hv
    simp only [Means, stored]
    constructor
    · rintro (rfl | rfl) <;> simp [getBooleanValue] at hx <;> simp [hx]
    · rintro (rfl | rfl) <;> simp [getBooleanValue] at hx <;> simp [hx]
  | int =>
    simp only [kindFits, decide_eq_true_eq] at hk
    rcases hk with hk | hk <;>
    · simp only [denotes, hk, Option.map_eq_some_iff] at hv
      obtain ⟨x, hx, rfl⟩ := hv
      exact ⟨x, hx, rfl⟩
  | float =>
    simp only [kindFits, decide_eq_true_eq] at hk
    rcases hk with hk | hk <;>
    · simp only [denotes, hk, Option.map_eq_some_iff] at hv
      obtain ⟨x, hx, rfl⟩ := hv
      exact ⟨x, hx, rfl⟩
  | time =>
    simp only [kindFits, decide_eq_true_eq] at hk
    simp only [denotes, hk, Option.map_eq_some_iff] at hv
    obtain ⟨x, hx, rfl⟩ := hv
    exact ⟨x, hx, rfl⟩
  | choice l =>
    simp only [kindFits, Bool.and_eq_true, decide_eq_true_eq] at hk
    obtain ⟨hg, hc⟩ := hk
    split at hc
    · rename_i e he
      have hv' : (getEnumValue e s true).map (Val.enum (C := Cls) (F := F) e) = some v := by
        rcases hg with hg | hg <;> simpa [denotes, hg, he] using hv
      obtain ⟨x, hx, rfl⟩ := Option.map_eq_some_iff.mp hv'
      have : x = s := by
        simp only [getEnumValue] at hx
        split at hx
        · cases hx
        · split at hx
          · cases hx
          · rename_i h; cases hx; simpa using h
      subst this
      refine ⟨e, ?_, rfl⟩
      intro y hy
      obtain ⟨z, hz, he⟩ := List.any_eq_true.mp (List.all_eq_true.mp hc y hy)
      rw [sameStr_iff.mp he]; exact hz
    · cases hc

/-- A scalar child. -/
theorem scalar_kept {c : Cls} {e : Xml} {ns : Str} {nss : NsMap} {c' : Cls} {ns' : Str} {nss' : NsMap}
    {attrs : List (Str × Val Cls F)} (h : parse fastkml true e c ns nss = .ok (.obj c' ns' nss' attrs))
    (hN : StdNs (mergeNs nss)) {it : Item Cls} (hit : it ∈ fastkml.itemsOf c) (hp : place it.get = .child)
    {pre post : List Xml} {k : Xml} (he : e.kids = pre ++ k :: post) {q : QN} (hkq : k.tag = tagOf q)
    (hq : q ∈ qnsIn it it.node) (hall : ∀ k' ∈ pre ++ post, ∃ q', k'.tag = tagOf q')
    (h1 : ∀ k' ∈ pre, k'.tag ≠ tagOf q) (h2 : ∀ k' ∈ pre ++ post, ∀ q' ∈ qnsIn it it.node, q' ≠ q → k'.tag ≠ tagOf q')
    {K : Kind} (hk : kindFits it K = true) {s : Str} (hs : trimmed k.text = some s) :
    Means K s (attr it.attr attrs) := by
  obtain ⟨id0, hid0, x, hx, rfl⟩ := mem_qnsIn hq
  obtain ⟨ipre, id, ipost, hids, hidx, hpre⟩ := first_split (fun i => xid i = some x) hid0 hx
  have hfind : e.find (nsGet (mergeNs nss) id ++ it.node) = some k := by
    have : nsGet (mergeNs nss) id ++ it.node = k.tag := by rw [(hN id).1 x hidx, hkq]; rfl
    rw [this]
    exact find_first he (by rw [hkq]; exact h1)
  have hsc : scalar it.get = true := by simp [scalar, hp]
  obtain ⟨v, hv, hst⟩ := C08_strict e c ns nss c' ns' nss' attrs h it hit hsc ipre ipost id s hids (by
    intro i hi
    have hi' : i ∈ it.nsIds := by rw [hids]; exact List.mem_append_left _ hi
    have hnone : e.find (nsGet (mergeNs nss) i ++ it.node) = none := by
      have hk1 : ∀ q', nsGet (mergeNs nss) i ++ it.node = tagOf q' → q' ∈ qnsIn it it.node ∧ q' ≠ .q x it.node := by
        intro q' hq'
        refine ⟨(looked_tag hN hit hi' (item_node hit) hq').1, ?_⟩
        rintro rfl
        rcases item_ids hit hi' with ⟨y, hy⟩ | rfl
        · rw [(hN i).1 y hy] at hq'
          have := tagOf_inj (q := .q y it.node) hq'
          cases this
          exact hpre i hi hy
        · rw [(hN []).2 rfl] at hq'
          exact item_node hit (by rw [← tagOf_brace (.q x it.node), ← hq']; rfl)
      refine find_absent he ?_ ?_
      · intro hc
        exact (hk1 _ (hc.symm.trans hkq)).2 rfl
      · intro k' hk' hc
        obtain ⟨q', hq'⟩ := hall k' hk'
        obtain ⟨ha, hb⟩ := hk1 q' (hc.symm.trans hq')
        exact h2 k' hk' q' ha hb hq'
    simp only [itemText, hp, childText_find, hnone]
    rfl) (by
    simp only [itemText, hp, childText_find, hfind]
    exact hs)
  rw [hst]
  exact means_of (c := c) hk hv _

theorem upTo_spec {d : Cls} : ∀ {l : List (PyType Cls)}, .cls d ∈ l →
    ∃ pre post, l = pre ++ .cls d :: post ∧ (∀ d', d' ∈ upTo d l ↔ .cls d' ∈ pre ∨ d' = d) := by
  intro l
  induction l with
  | nil => intro h; cases h
  | cons x l ih =>
    intro h
    by_cases hx : x = .cls d
    · subst hx
      exact ⟨[], l, rfl, fun d' => by simp [upTo]⟩
    · have hm : PyType.cls d ∈ l := by
        rcases List.mem_cons.mp h with h | h
        · exact absurd h.symm hx
        · exact h
      obtain ⟨pre, post, rfl, hu⟩ := ih hm
      refine ⟨x :: pre, post, rfl, fun d' => ?_⟩
      cases x <;> simp only [upTo, List.cons_append, hu d', List.mem_cons, reduceCtorEq, false_or]
      rename_i d0
      have : d0 ≠ d := fun h => hx (by rw [h])
      simp only [if_neg this, List.mem_cons, hu d', PyType.cls.injEq, or_assoc]

/-- A child that is read as an object. -/
theorem object_kept {c : Cls} {e : Xml} {ns : Str} {nss : NsMap} {c' : Cls} {ns' : Str} {nss' : NsMap}
    {attrs : List (Str × Val Cls F)} (h : parse fastkml true e c ns nss = .ok (.obj c' ns' nss' attrs))
    (hN : StdNs (mergeNs nss)) {it : Item Cls} (hit : it ∈ fastkml.itemsOf c) (hg : it.get = .xmlSub)
    {pre post : List Xml} {k : Xml} (he : e.kids = pre ++ k :: post) {q : QN} (hkq : k.tag = tagOf q) {d : Cls}
    (hd : .cls d ∈ it.classes) (hq : q ∈ qnsIn it (fastkml.info d).tag) (hall : ∀ k' ∈ pre ++ post, ∃ q', k'.tag = tagOf q')
    (h1 : ∀ k' ∈ pre, k'.tag ≠ tagOf q)
    (h2 : ∀ k' ∈ pre ++ post, ∀ q' ∈ rivals it d q, q' ≠ q → k'.tag ≠ tagOf q')
    (htag : ∀ d', .cls d' ∈ it.classes → (fastkml.info d').tag = (fastkml.info d).tag → d' = d) :
    ∃ id, parse fastkml true k d (nsGet (mergeNs nss) id) (mergeNs nss) = .ok (attr it.attr attrs) := by
  obtain ⟨cpre, cpost, hcl, hup⟩ := upTo_spec hd
  obtain ⟨id0, hid0, x, hx, rfl⟩ := mem_qnsIn hq
  have hfind : ∀ id, nsGet (mergeNs nss) id = uri x → e.find (nsGet (mergeNs nss) id ++ (fastkml.info d).tag) = some k := by
    intro id hid
    have : nsGet (mergeNs nss) id ++ (fastkml.info d).tag = k.tag := by rw [hid, hkq]; rfl
    rw [this]
    exact find_first he (by rw [hkq]; exact h1)
  have hnone : ∀ id ∈ it.nsIds, ∀ d', d' ∈ upTo d it.classes →
      (nsGet (mergeNs nss) id ++ (fastkml.info d').tag ≠ tagOf (.q x (fastkml.info d).tag)) →
      e.find (nsGet (mergeNs nss) id ++ (fastkml.info d').tag) = none := by
    intro id hid d' hd' hne
    have hd'' : .cls d' ∈ it.classes := by
      rw [hcl]
      rcases (hup d').mp hd' with h | rfl
      · exact List.mem_append_left _ h
      · simp
    refine find_absent he (by rw [hkq]; exact fun h => hne h.symm) ?_
    intro k' hk' hc
    obtain ⟨q', hq'⟩ := hall k' hk'
    have ht := hc.symm.trans hq'
    refine h2 k' hk' q' (List.mem_append_left _ (List.mem_flatMap.mpr
      ⟨d', hd', (looked_tag hN hit hid (item_tag hit hd'') ht).1⟩)) ?_ hq'
    rintro rfl
    exact hne ht
  rcases C14_object true e c ns nss c' ns' nss' attrs h it hit hg with ⟨-, hno⟩ | ⟨ipre, id, ipost, cp, d', cq, k', hids, hcl', hip, hcp, hf, hpa⟩
  · have := hno id0 hid0 d hd
    rw [hfind id0 ((hN id0).1 x hx)] at this
    cases this
  · have hidm : id ∈ it.nsIds := by rw [hids]; simp
    have hdm : .cls d' ∈ it.classes := by rw [hcl']; simp
    by_cases hu : d' ∈ upTo d it.classes
    · by_cases hne : nsGet (mergeNs nss) id ++ (fastkml.info d').tag = tagOf (.q x (fastkml.info d).tag)
      · have hname := (looked_tag hN hit hidm (item_tag hit hdm) hne).2
        have : d' = d := htag d' hdm hname.symm
        subst this
        rw [hne, ← hkq] at hf
        rw [find_first he (by rw [hkq]; exact h1)] at hf
        cases hf
        exact ⟨id, hpa⟩
      · rw [hnone id hidm d' hu hne] at hf
        cases hf
    · -- a later class: `d` was looked for before
      exfalso
      have hdd : d' ≠ d := by rintro rfl; exact hu ((hup d').mpr (.inr rfl))
      have hdcp : .cls d ∈ cp := by
        have hd'pre : PyType.cls d' ∉ cpre := fun h => hu ((hup d').mpr (.inl h))
        have heq : cpre ++ .cls d :: cpost = cp ++ .cls d' :: cq := hcl ▸ hcl'
        rcases List.append_eq_append_iff.mp heq with ⟨l, h1, h2⟩ | ⟨l, h1, h2⟩
        · cases l with
          | nil => simp at h2; exact absurd h2.1.symm hdd
          | cons y l => simp at h2; rw [h1, ← h2.1]; simp
        · cases l with
          | nil => simp at h2; exact absurd h2.1 hdd
          | cons y l =>
            simp at h2
            exact absurd (by rw [h1, ← h2.1]; simp) hd'pre
      by_cases hid0' : id0 ∈ ipre
      · have := hip id0 hid0' d hd
        rw [hfind id0 ((hN id0).1 x hx)] at this
        cases this
      · by_cases hidx : nsGet (mergeNs nss) id = uri x
        · have := hcp d hdcp
          rw [hfind id hidx] at this
          cases this
        · -- another namespace
          have hk' : k' ∈ e.kids ∧ k'.tag = nsGet (mergeNs nss) id ++ (fastkml.info d').tag := by
            refine ⟨List.mem_of_find?_eq_some hf, ?_⟩
            simpa using List.find?_some hf
          obtain ⟨hk'm, hk't⟩ := hk'
          rw [he] at hk'm
          have hcase : k' = k ∨ k' ∈ pre ++ post := by
            rcases List.mem_append.mp hk'm with h | h
            · exact .inr (List.mem_append_left _ h)
            · rcases List.mem_cons.mp h with h | h
              · exact .inl h
              · exact .inr (List.mem_append_right _ h)
          have hqq : ∀ q', k'.tag = tagOf q' → q' ∈ qnsIn it (fastkml.info d').tag ∧ q'.ns ≠ x := by
            intro q' hq'
            have ht := hk't.symm.trans hq'
            obtain ⟨ha, -⟩ := looked_tag hN hit hidm (item_tag hit hdm) ht
            refine ⟨ha, ?_⟩
            rintro rfl
            rcases item_ids hit hidm with ⟨y, hy⟩ | rfl
            · rw [(hN id).1 y hy] at ht
              rw [← tagOf_inj (q := .q y _) ht] at hidx
              exact hidx ((hN id).1 y hy)
            · rw [(hN []).2 rfl] at ht
              exact item_tag hit hdm (by rw [← tagOf_brace q', ← ht]; rfl)
          rcases hcase with rfl | hk'
          · exact (hqq _ hkq).2 rfl
          · obtain ⟨q', hq'⟩ := hall k' hk'
            obtain ⟨ha, hb⟩ := hqq q' hq'
            refine h2 k' hk' q' (List.mem_append_right _ (List.mem_flatMap.mpr ⟨d', ?_, ?_⟩)) ?_ hq'
            · simp only [clsList, List.mem_filterMap]
              exact ⟨_, hdm, rfl⟩
            · simp only [List.mem_filter, decide_eq_true_eq]
              exact ⟨ha, hb⟩
            · rintro rfl
              exact hb rfl

/-- A child that is read as a member of a list. -/
theorem list_kept {c : Cls} {e : Xml} {ns : Str} {nss : NsMap} {c' : Cls} {ns' : Str} {nss' : NsMap}
    {attrs : List (Str × Val Cls F)} (h : parse fastkml true e c ns nss = .ok (.obj c' ns' nss' attrs))
    (hN : StdNs (mergeNs nss)) {it : Item Cls} (hit : it ∈ fastkml.itemsOf c) (hg : it.get = .xmlSubList)
    {k : Xml} (hk : k ∈ e.kids) {x : XNs} {d : Cls} (hkq : k.tag = tagOf (.q x (fastkml.info d).tag))
    (hd : .cls d ∈ it.classes) {id : Str} {ids : List Str} (hids : it.nsIds = id :: ids) (hx : xid id = some x) :
    ∃ w, parse fastkml true k d (nsGet (mergeNs nss) id) (mergeNs nss) = .ok w ∧ Holds c it.attr attrs w := by
  obtain ⟨id', ids', vss, h1, h2, h3⟩ := C11_list true e c ns nss c' ns' nss' attrs h it hit hg
  rw [hids] at h1
  cases h1
  obtain ⟨vs, hvs, d', hd', hall⟩ := h2.mem_left hd
  cases hd'
  have hkf : k ∈ e.findall (nsGet (mergeNs nss) id ++ (fastkml.info d).tag) := by
    simp only [Xml.findall, List.mem_filter, decide_eq_true_eq]
    refine ⟨hk, ?_⟩
    rw [hkq, (hN id).1 x hx]; rfl
  obtain ⟨w, hw, hp⟩ := hall.mem_left hkf
  refine ⟨w, hp, .inr ⟨_, h3, ?_⟩⟩
  have hwf : w ∈ vss.flatten := List.mem_flatten.mpr ⟨vs, hvs, hw⟩
  by_cases hc : c = .ExtendedData ∨ c = .MultiTrack
  · rw [if_pos hc]
    cases hn : nonEmpty fastkml w
    · exact .inr ⟨rfl, hc⟩
    · exact .inl (List.mem_filter.mpr ⟨hwf, hn⟩)
  · rw [if_neg hc]
    exact .inl hwf

theorem mem_unlist {l : List Str} {s : Str} (h : l.any (sameStr s) = true) : s ∈ l := by
  obtain ⟨x, hx, he⟩ := List.any_eq_true.mp h
  rw [sameStr_iff.mp he]; exact hx

/-- An XML attribute. -/
theorem attribute_kept {c : Cls} {T : QN} (hT : T ∈ typesOf c) {e : Xml} {ns : Str} {nss : NsMap} {c' : Cls} {ns' : Str}
    {nss' : NsMap} {attrs : List (Str × Val Cls F)} (h : parse fastkml true e c ns nss = .ok (.obj c' ns' nss' attrs))
    (hN : StdNs (mergeNs nss)) {a : XAttr} (ha : a ∈ typeAttrs 8 T) (hu : a.name ∉ unsupportedAttrs c) {s : Str}
    (hs : e.get a.name = some s) (hne : s ≠ []) (hb : ∀ x, e.get (uri x ++ a.name) = none) :
    Means (kindOf c a.name a.type) s (attr (holder c a.name) attrs) := by
  have := List.all_eq_true.mp (fastkml_attrsOk hT) a ha
  rw [Bool.or_eq_true] at this
  rcases this with h' | h'
  · exact absurd (mem_unlist h') hu
  · obtain ⟨it, hit, hr⟩ := List.any_eq_true.mp h'
    simp only [readsAttr, Bool.and_eq_true, decide_eq_true_eq, sameStr_iff] at hr
    obtain ⟨⟨⟨⟨hat, hp⟩, hn⟩, hid⟩, hk⟩ := hr
    rw [← hat]
    have hid' : ([] : Str) ∈ it.nsIds := mem_unlist hid
    obtain ⟨ipre, id, ipost, hids, hidx, hpre⟩ := first_split (fun i => i = ([] : Str)) hid' rfl
    subst hidx
    have hsc : scalar it.get = true := by simp [scalar, hp]
    obtain ⟨v, hv, hst⟩ := C08_strict e c ns nss c' ns' nss' attrs h it hit hsc ipre ipost [] s hids (by
      intro i hi
      simp only [itemText, hp]
      have : dget (nsGet (mergeNs nss) i ++ it.node) e.attrs = none := by
        rcases item_ids hit (by rw [hids]; exact List.mem_append_left _ hi) with ⟨y, hy⟩ | rfl
        · rw [(hN i).1 y hy, hn]
          exact hb y
        · exact absurd rfl (hpre [] hi)
      rw [this]; rfl) (by
      simp only [itemText, hp]
      rw [(hN []).2 rfl, List.nil_append, hn]
      simp only [Xml.get] at hs
      rw [hs]
      simp [given, hne])
    rw [hst]
    exact means_of (c := c) hk hv _

/-- The attribute for the text of an element is filled from it. -/
theorem text_item {c : Cls} {a : Str} (h : textHolder c = some a) :
    ∃ it ∈ fastkml.itemsOf c, it.attr = a ∧ it.get = .nodeText := by
  have key : ∀ c ∈ Cls.all, (match textHolder c with
      | none => true
      | some a => (fastkml.itemsOf c).any fun it => decide (it.attr = a) && decide (it.get = .nodeText)) = true := by
    decide +kernel
  have := key c (Cls.mem_all c)
  rw [h] at this
  obtain ⟨it, hit, hp⟩ := List.any_eq_true.mp this
  simp only [Bool.and_eq_true, decide_eq_true_eq] at hp
  exact ⟨it, hit, hp⟩

/-- **C61.** Strict reading of an element whose children are as the schemas declare keeps
all of its content that is supported, at all depths: each child and each XML attribute is
held by the attribute that is meant for it, with its value, or the object read from it. -/
theorem C61_kept {e : Xml} : ∀ {c : Cls} {T : QN} {ns : Str} {nss : NsMap} {v : Val Cls F}, T ∈ typesOf c → Ordered T e →
    mergeNs nss = mergeNs [] → parse fastkml true e c ns nss = .ok v → Kept e c T v := by
  induction e using Xml.ind with
  | h tag as tx ks ih =>
    intro c T ns nss v hT ho hn h
    have hN : StdNs (mergeNs nss) := by rw [hn]; exact stdNs_default
    obtain ⟨-, attrs, rfl⟩ := parse_typed fastkml_readOk h
    rw [kept_iff]
    refine ⟨_, _, attrs, rfl, ⟨?_, ?_, ?_, ?_⟩⟩
    · intro a ha hu s hs hne hb
      exact attribute_kept hT h hN ha hu hs hne hb
    · intro a ha s hs
      obtain ⟨it, hit, rfl, hg⟩ := text_item ha
      obtain ⟨id, ids, hids⟩ := List.exists_cons_of_ne_nil ((fastkml_namesOk c).ids it hit)
      obtain ⟨w, hw, hst⟩ := C08_strict _ c ns nss c _ _ attrs h it hit (by simp [scalar, place, hg]) [] ids id s hids
        (by intro i hi; cases hi) (by simp only [itemText, place, hg]; exact hs)
      rw [hst]
      exact means_of (c := c) (by simp [kindFits, hg]) hw _
    · rintro rfl s hs
      have hit : (⟨[s% "kml", []], [.lineType], s% "coords", .coordinates, .coordinates, s% "coordinates", .none⟩ :
          Item Cls) ∈ fastkml.itemsOf .Coordinates := by decide +kernel
      obtain ⟨o, ho, hno⟩ := parse_attr (n := .coordsOr) (fastkml_readOk .Coordinates) h hit (by decide +kernel)
      simp only [Xml.text] at hs
      subst hs
      have hg : ∀ m, getKwarg (F := F) fastkml ⟨[s% "kml", []], [.lineType], s% "coords", .coordinates, .coordinates,
          s% "coordinates", .none⟩ true m (mergeNs nss) (.mk tag as (some s) ks) (kidsOf (parse fastkml true) ks) =
          wrap .coords (getCoordinates (.mk tag as (some s) ks) true) := fun m => rfl
      simp only [tryNs, Xml.kids, hg, getCoordinates, Xml.text] at ho
      cases ht : (tuplesOf (latlons s) : Option (List (Pt F))) with
      | none => rw [ht] at ho; simp [handleError, wrap] at ho
      | some l =>
        rw [ht] at ho
        simp only [wrap, Except.ok.injEq] at ho
        subst ho
        simp only [Option.getD_some, normalise, Except.ok.injEq] at hno
        exact ⟨l, rfl, hno.symm⟩
    · intro pre k post hks
      rw [keptKids_map] at hks
      obtain ⟨pre', kp, rfl, rfl, hkp⟩ := List.map_eq_append_iff.mp hks
      obtain ⟨k', post', rfl, rfl, rfl⟩ := List.map_eq_cons_iff.mp hkp
      simp only [List.map_map]
      have e1 : pre'.map ((fun x : Xml × (Cls → QN → Val Cls F → Prop) => x.1) ∘ fun k => (k, fun c T v => Kept k c T v)) = pre' := by
        simp [Function.comp_def]
      have e2 : post'.map ((fun x : Xml × (Cls → QN → Val Cls F → Prop) => x.1) ∘ fun k => (k, fun c T v => Kept k c T v)) = post' := by
        simp [Function.comp_def]
      rw [e1, e2]
      cases ho with
      | simple hs hk => simp [Xml.kids] at hk
      | @complex _ ty _ qs hs hq hk =>
        obtain ⟨qpre, q, t, qpost, rfl, ho1, hkq, hok, ho2⟩ := orderedAll_split (by simpa only [Xml.kids] using hk)
        refine ⟨q, hkq, ?_⟩
        obtain ⟨p, hp, hqp⟩ := accepts_mem hq (q, some t) (by simp)
        have hco : childOk c (partsOf 8 T) q t = true :=
          List.all_eq_true.mp (List.all_eq_true.mp (fastkml_childrenOk hT) p hp) _ hqp
        simp only [childOk, Bool.or_eq_true, hasQN_iff] at hco
        rcases hco with (hco | hco) | hco
        · exact .inl hco
        · exact .inr (.inl hco)
        · by_cases hd : Displaced c pre' post' k'.tag
          · exact .inr (.inr (.inl hd))
          · refine .inr (.inr (.inr ⟨t, ⟨p, hp, hqp⟩, ?_⟩))
            rw [hkq] at hd
            obtain ⟨it, hit, hr⟩ := List.any_eq_true.mp hco
            simp only [readsChild, Bool.and_eq_true, sameStr_iff] at hr
            obtain ⟨hattr, hr⟩ := hr
            have hall : ∀ k ∈ pre' ++ post', ∃ q', k.tag = tagOf q' := by
              intro k hk'
              rcases List.mem_append.mp hk' with hk' | hk'
              · obtain ⟨x, -, hx⟩ := orderedAll_mem ho1 k hk'; exact ⟨_, hx⟩
              · obtain ⟨x, -, hx⟩ := orderedAll_mem ho2 k hk'; exact ⟨_, hx⟩
            have hkids : (Xml.mk tag as tx (pre' ++ k' :: post')).kids = pre' ++ k' :: post' := rfl
            have hmem : k' ∈ pre' ++ k' :: post' := by simp
            simp only [KeptChild]
            split at hr
            · rename_i hcf
              rw [hcf]
              simp only [Bool.and_eq_true, decide_eq_true_eq, sameStr_iff, hasQN_iff] at hr
              obtain ⟨⟨⟨⟨hpl, hnode⟩, hqn⟩, hkf⟩, hal⟩ := hr
              rw [← hnode] at hqn
              obtain ⟨a1, a2⟩ := alone hal hqn hq ho1 ho2 hd
              intro s hs
              rw [← hattr]
              exact scalar_kept h hN hit hpl hkids hkq hqn hall a1 a2 hkf hs
            · rename_i d hcf
              rw [hcf]
              simp only [Bool.and_eq_true, decide_eq_true_eq, sameStr_iff, hasQN_iff, List.any_eq_true] at hr
              obtain ⟨⟨⟨htag, ⟨_, hdc, rfl⟩⟩, htd⟩, hr⟩ := hr
              rw [← hattr]
              split at hr
              · rename_i hg
                simp only [Bool.and_eq_true, hasQN_iff, List.all_eq_true, Bool.or_eq_true, decide_eq_true_eq,
                  Bool.not_eq_true'] at hr
                obtain ⟨⟨hqn, hal⟩, htg⟩ := hr
                rw [← htag] at hqn
                obtain ⟨cp, cq, hcl, hup⟩ := upTo_spec hdc
                obtain ⟨a1, a2⟩ := alone hal (List.mem_append_left _ (List.mem_flatMap.mpr ⟨d, (hup d).mpr (.inr rfl), hqn⟩))
                  hq ho1 ho2 hd
                obtain ⟨id, hpa⟩ := object_kept h hN hit hg hkids hkq hdc hqn hall a1 a2 (by
                  intro d' hd' he
                  rcases htg d' (by simp only [clsList, List.mem_filterMap]; exact ⟨_, hd', rfl⟩) with h | h
                  · exact h
                  · rw [sameStr_iff.mpr he] at h; cases h)
                exact ⟨_, ih k' hmem htd hok (by rw [mergeNs_idem]; exact hn) hpa, .inl rfl⟩
              · rename_i hg
                split at hr
                · rename_i id ids hids
                  simp only [decide_eq_true_eq, Option.map_eq_some_iff] at hr
                  obtain ⟨x, hx, hqe⟩ := hr
                  have hkq' : k'.tag = tagOf (.q x (fastkml.info d).tag) := by rw [htag, hqe]; exact hkq
                  obtain ⟨w, hw, hh⟩ := list_kept h hN hit hg hmem hkq' hdc hids hx
                  exact ⟨w, ih k' hmem htd hok (by rw [mergeNs_idem]; exact hn) hw, hh⟩
                · cases hr
              · cases hr

/-- Valid elements have their children as declared. -/
theorem ordered_of_valid {T : QN} {e : Xml} (h : Valid ok T e) : Ordered T e := by
  refine Valid.rec (motive_1 := fun T e _ => Ordered T e) (motive_2 := fun qs ks _ => OrderedAll qs ks)
    ?_ ?_ ?_ ?_ h
  · intro t e hs _ hk _
    exact .simple hs hk
  · intro t ty e qs hs _ _ _ hq _ ih
    exact .complex hs hq ih
  · exact .nil
  · intro q t k qs ks hn _ _ ih1 ih2
    exact .cons hn ih1 ih2

/-- **C61** for `from_string`, with the names of the schemas: strict reading of a valid
element as the class of that name keeps all of its content that is supported. -/
theorem C61_from_string {c : Cls} {T : QN} (hc : elemType c = some T) {e : Xml} (he : Valid ok T e) {ns : Option Str}
    {v : Val Cls F} (h : fromElement fastkml true c ns [] e = .ok v) : Kept e c T v :=
  C61_kept (by simp [typesOf, hc]) (ordered_of_valid he) (mergeNs_idem []) h

/-! ## What is not supported -/

/-- The item does not look for the child. -/
def ignoresChild (q : QN) (it : Item Cls) : Bool :=
  match place it.get with
  | .child | .children => !hasQN (qnsIn it it.node) q
  | .object | .objects => (clsList it).all fun d => !hasQN (qnsIn it (fastkml.info d).tag) q
  | _ => true

theorem fastkml_ignores (c : Cls) {q : QN} (hq : q ∈ unsupported c) : ∀ it ∈ fastkml.itemsOf c, ignoresChild q it = true := by
  have key : ∀ c ∈ Cls.all, ((unsupported c).all fun q => (fastkml.itemsOf c).all (ignoresChild q)) = true := by decide +kernel
  exact List.all_eq_true.mp (List.all_eq_true.mp (key c (Cls.mem_all c)) q hq)

/-- **C61**: the children listed as unsupported have no influence at all on the object
that is read, so the list is no longer than it has to be. -/
theorem C61_unsupported (strict : Bool) {c : Cls} {q : QN} (hq : q ∈ unsupported c) {k : Xml} (hk : k.tag = tagOf q)
    (ns : Str) {nss : NsMap} (hn : mergeNs nss = mergeNs []) (t : Str) (a : List (Str × Str)) (x : Option Str)
    (pre post : List Xml) :
    parse (F := F) fastkml strict (.mk t a x (pre ++ k :: post)) c ns nss =
      parse fastkml strict (.mk t a x (pre ++ post)) c ns nss := by
  have hN : StdNs (mergeNs nss) := by rw [hn]; exact stdNs_default
  have hig := fastkml_ignores c hq
  refine C09_unknown_child strict c ns nss t a x pre post k ?_ ?_
  · rintro ⟨it, hit, id, hid, ⟨hp, ht⟩ | ⟨hp, d, hd, ht⟩⟩
    · have := hig it hit
      simp only [ignoresChild, hp] at this
      rw [hasQN_iff.mpr (looked_tag hN hit hid (item_node hit) (ht.symm.trans hk)).1] at this
      cases this
    · have := hig it hit
      simp only [ignoresChild, hp, List.all_eq_true] at this
      have := this d (by simp only [clsList, List.mem_filterMap]; exact ⟨_, hd, rfl⟩)
      rw [hasQN_iff.mpr (looked_tag hN hit hid (item_tag hit hd) (ht.symm.trans hk)).1] at this
      cases this
  · rintro ⟨it, hit, id, hid, ⟨hp, ht⟩ | ⟨hp, d, hd, ht⟩⟩
    · have := hig it hit
      simp only [ignoresChild, hp] at this
      rw [hasQN_iff.mpr (looked_tag hN hit hid (item_node hit) (ht.symm.trans hk)).1] at this
      cases this
    · have := hig it hit
      simp only [ignoresChild, hp, List.all_eq_true] at this
      have := this d (by simp only [clsList, List.mem_filterMap]; exact ⟨_, hd, rfl⟩)
      rw [hasQN_iff.mpr (looked_tag hN hit hid (item_tag hit hd) (ht.symm.trans hk)).1] at this
      cases this

/-- **C61**: neither have the XML attributes listed as unsupported. -/
theorem C61_unsupported_attribute (strict : Bool) {c : Cls} {n : Str} (hn : n ∈ unsupportedAttrs c) (s : Str) (ns : Str)
    {nss : NsMap} (hN : mergeNs nss = mergeNs []) (t : Str) (x : Option Str) (pre post : List (Str × Str)) (ks : List Xml) :
    parse (F := F) fastkml strict (.mk t (pre ++ (n, s) :: post) x ks) c ns nss =
      parse fastkml strict (.mk t (pre ++ post) x ks) c ns nss := by
  have key : ∀ c ∈ Cls.all, ((unsupportedAttrs c).all fun n => (fastkml.itemsOf c).all fun it => it.nsIds.all fun id =>
      !decide (n = nsGet (mergeNs []) id ++ it.node) || decide (place it.get ≠ .attr)) = true := by decide +kernel
  refine C09_unknown_attribute strict c ns nss t pre post n s x ks ?_
  rintro ⟨it, hit, id, hid, hp, ht⟩
  have := List.all_eq_true.mp (List.all_eq_true.mp (List.all_eq_true.mp (key c (Cls.mem_all c)) n hn) it hit) id hid
  rw [hN] at ht
  simp [← ht, hp] at this

/-! ## Concrete documents -/

/-- The declared element with the tag. -/
def elemAt (p : Part) (tag : Str) : Option Typed := p.elems.find? fun x => sameStr tag (tagOf x.1)

/-- Children assigned to particles, greedily. -/
def assign : List Part → List Xml → Option (List Typed)
  | [], [] => some []
  | [], _ :: _ => none
  | p :: ps, ks =>
    let ts := (if p.unb then ks else ks.take 1).takeWhile fun k => (elemAt p k.tag).isSome
    if p.min ≤ ts.length then (assign ps (ks.drop ts.length)).map (ts.filterMap (fun k => elemAt p k.tag) ++ ·) else none

/-- `Ordered`, computed, to the given depth. -/
def orderedB : Nat → QN → Xml → Bool
  | 0, _, _ => false
  | n + 1, T, e => match typeDecl T with
    | none => e.kids.isEmpty
    | some _ => match assign (partsOf 8 T) e.kids with
      | none => false
      | some qs => (qs.zip e.kids).all fun xk => match xk.1.2 with
        | none => false
        | some t => orderedB n t xk.2

theorem assign_sound {ps : List Part} : ∀ {ks : List Xml} {qs : List Typed}, assign ps ks = some qs →
    Accepts ps qs ∧ All2 (fun x k => k.tag = tagOf x.1) qs ks := by
  induction ps with
  | nil =>
    intro ks qs h
    cases ks with
    | nil => simp [assign] at h; subst h; exact ⟨.nil, .nil⟩
    | cons k ks => simp [assign] at h
  | cons p ps ih =>
    intro ks qs h
    simp only [assign] at h
    generalize hts : (if p.unb then ks else ks.take 1).takeWhile (fun k => (elemAt p k.tag).isSome) = ts at h
    split at h
    · rename_i hmin
      obtain ⟨us, hus, rfl⟩ := Option.map_eq_some_iff.mp h
      obtain ⟨ha, hb⟩ := ih hus
      have hsome : ∀ k ∈ ts, (elemAt p k.tag).isSome = true := by
        intro k hk
        rw [← hts] at hk
        exact List.all_eq_true.mp List.all_takeWhile k hk
      have hpre : ts ++ ks.drop ts.length = ks := by
        have : ts <+: ks := by
          rw [← hts]
          refine (List.takeWhile_prefix _).trans ?_
          split
          · exact List.prefix_refl _
          · exact List.take_prefix _ _
        obtain ⟨r, hr⟩ := this
        rw [← hr]; simp
      have hlen : p.unb = true ∨ ts.length ≤ 1 := by
        rw [← hts]
        cases p.unb
        · right
          have := (List.takeWhile_prefix (l := ks.take 1) fun k => (elemAt p k.tag).isSome).length_le
          simp at this ⊢
          omega
        · exact .inl rfl
      have hzip : ∀ l : List Xml, (∀ k ∈ l, (elemAt p k.tag).isSome = true) →
          (l.filterMap fun k => elemAt p k.tag).length = l.length ∧
          All2 (fun x k => k.tag = tagOf x.1) (l.filterMap fun k => elemAt p k.tag) l := by
        intro l
        induction l with
        | nil => intro _; exact ⟨rfl, .nil⟩
        | cons k l ihl =>
          intro hl
          obtain ⟨x, hx⟩ := Option.isSome_iff_exists.mp (hl k List.mem_cons_self)
          obtain ⟨h1, h2⟩ := ihl fun k hk => hl k (List.mem_cons_of_mem _ hk)
          simp only [List.filterMap_cons, hx, List.length_cons, h1, true_and]
          refine .cons ?_ h2
          simpa [sameStr_iff] using List.find?_some hx
      obtain ⟨hl1, hl2⟩ := hzip ts hsome
      refine ⟨.cons ?_ (by rw [hl1]; exact hmin) (by rw [hl1]; exact hlen) ha, ?_⟩
      · intro t ht
        obtain ⟨k, -, hk⟩ := List.mem_filterMap.mp ht
        exact List.mem_of_find?_eq_some hk
      · rw [← hpre]
        exact hl2.append hb
    · cases h

theorem orderedB_sound {n : Nat} : ∀ {T : QN} {e : Xml}, orderedB n T e = true → Ordered T e := by
  induction n with
  | zero => intro T e h; cases h
  | succ n ih =>
    intro T e h
    simp only [orderedB] at h
    split at h
    · rename_i hd
      exact .simple hd (by simpa using h)
    · rename_i ty hd
      split at h
      · cases h
      · rename_i qs hqs
        obtain ⟨ha, hb⟩ := assign_sound hqs
        refine .complex hd ha ?_
        have : ∀ {qs : List Typed} {ks : List Xml}, All2 (fun x k => k.tag = tagOf x.1) qs ks →
            ((qs.zip ks).all fun xk => match xk.1.2 with
              | none => false
              | some t => orderedB n t xk.2) = true → OrderedAll qs ks := by
          intro qs ks h2
          induction h2 with
          | nil => intro _; exact .nil
          | @cons x k qs ks hx h2 ih2 =>
            intro hz
            simp only [List.zip_cons_cons, List.all_cons, Bool.and_eq_true] at hz
            obtain ⟨q, t⟩ := x
            cases t with
            | none => cases hz.1
            | some t => exact .cons hx (ih hz.1) (ih2 hz.2)
        exact this hb h

/-- A child with a text. -/
def kLeaf (n t : Str) : Xml := .leaf (kmlNs ++ n) t

/-- A KML element. -/
def kNode (n : Str) (as : List (Str × Str)) (ks : List Xml) : Xml := .mk (kmlNs ++ n) as none ks

/-- A document with many kinds of content, and with elements that are not supported. -/
def richDoc : Xml := kNode (s% "kml") [] [kNode (s% "Document") [(s% "id", s% "d")] [
  kLeaf (s% "name") (s% "n"), kLeaf (s% "visibility") (s% "0"), kLeaf (s% "open") (s% "1"),
  kNode (s% "LookAt") [] [kLeaf (s% "longitude") (s% "1.5"), kLeaf (s% "latitude") (s% "2.5"), kLeaf (s% "range") (s% "10")],
  kNode (s% "TimeStamp") [] [kLeaf (s% "when") (s% "2020-01-02")],
  kLeaf (s% "styleUrl") (s% "#s"),
  kNode (s% "Style") [(s% "id", s% "s")] [
    kNode (s% "IconStyle") [] [kLeaf (s% "scale") (s% "2.5"),
      kNode (s% "Icon") [] [kLeaf (s% "href") (s% "i.png")],
      .mk (kmlNs ++ s% "hotSpot") [(s% "x", s% "1"), (s% "xunits", s% "pixels")] none []]],
  .mk (gxNs ++ s% "balloonVisibility") [] (some (s% "1")) [],
  kNode (s% "Placemark") [] [kLeaf (s% "name") (s% "p"), kNode (s% "LineString") [] [
    kLeaf (s% "extrude") (s% "true"), kLeaf (s% "altitudeMode") (s% "absolute"), kLeaf (s% "coordinates") (s% "1,2 3,4")]]]]

example : orderedB 10 (.q .kml (s% "KmlType")) richDoc = true := by decide +kernel
example : elemType .KML = some (.q .kml (s% "KmlType")) := by decide +kernel
example : (match fromElement (F := Fix) fastkml true .KML none [] richDoc with
    | .ok _ => true | .error _ => false) = true := by decide +kernel

/-! ## What is lost -/

/-- The attribute of the result. -/
def readAttr (strict : Bool) (c : Cls) (a : Str) (e : Xml) : Option (Val Cls Fix) :=
  match fromElement (F := Fix) fastkml strict c none [] e with
  | .ok (.obj _ _ _ attrs) => some (attr a attrs)
  | _ => none

/-- A document that is a screen overlay. -/
def overlayDoc : Xml := kNode (s% "kml") [] [kNode (s% "ScreenOverlay") [] [kLeaf (s% "name") (s% "o")]]

/-- **C61**, disagreement: a screen overlay that is the feature of a document is not read
(it can be appended to a `KML` object, and is written). -/
theorem C61_screen_overlay : Ordered (.q .kml (s% "KmlType")) overlayDoc ∧
    readAttr true .KML (s% "features") overlayDoc = some (.list []) :=
  ⟨orderedB_sound (n := 5) (by decide +kernel), by decide +kernel⟩

/-- A pair with a style and a reference to a style. -/
def pairDoc : Xml := kNode (s% "Pair") [] [kLeaf (s% "key") (s% "normal"), kLeaf (s% "styleUrl") (s% "#a"),
  kNode (s% "Style") [(s% "id", s% "s")] []]

/-- **C61**, disagreement: of the `styleUrl` and the `Style` of a pair only the former is
read. -/
theorem C61_pair : Ordered (.q .kml (s% "PairType")) pairDoc ∧
    (readAttr true .Pair (s% "style") pairDoc).bind classOf = some .StyleUrl :=
  ⟨orderedB_sound (n := 5) (by decide +kernel), by decide +kernel⟩

/-- An author with two names. -/
def authorDoc : Xml := .mk (uri .atom ++ s% "author") [] none [.leaf (uri .atom ++ s% "name") (s% "a"),
  .leaf (uri .atom ++ s% "name") (s% "b")]

/-- **C61**, disagreement: only the first name of an author is read. -/
theorem C61_author : (∃ T, elemType .Author = some T ∧ Ordered T authorDoc) ∧
    readAttr true .Author (s% "name") authorDoc = some (.str (s% "a")) :=
  ⟨⟨(elemType .Author).getD basicLink, by decide +kernel, orderedB_sound (n := 5) (by decide +kernel)⟩, by decide +kernel⟩

/-- A level of detail with a fraction. -/
def lodDoc : Xml := kNode (s% "Lod") [] [kLeaf (s% "minLodPixels") (s% "128.5")]

/-- **C61**, disagreement: fractions, which the schemas allow for the numbers of a `Lod`,
are rejected in strict mode and dropped in lenient mode. -/
theorem C61_lod : Ordered (.q .kml (s% "LodType")) lodDoc ∧
    fromElement (F := Fix) fastkml true .Lod none [] lodDoc = .error .parseError ∧
    readAttr false .Lod (s% "min_lod_pixels") lodDoc = some .none :=
  ⟨orderedB_sound (n := 5) (by decide +kernel), by decide +kernel, by decide +kernel⟩

end Verif
