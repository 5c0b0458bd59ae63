import Verif.Lemmas.Valid
import Verif.Lemmas.Simple
import Verif.Props.Empty

/-!
# C44, C45: the output is valid
-/

set_option linter.unusedSectionVars false
set_option linter.unusedSimpArgs false

namespace Verif

open Spec

variable {F : Type} [PyExt F] {ok : QN → Str → Prop}

/-! ## Texts -/

theorem facet_text {P : Pt F → Bool} {it : Item Cls} {sel : Str → Bool} {ty : QN} (h : facet it sel ty = true)
    {v : Val Cls F} (hk : kindOk P it v = true) (hs : scalar it.get = true) {s : Str} (hv : scalarText v = some s)
    (hsel : ∀ e x, v = .enum e x → sel s = true) : textOk ty s := by
  simp only [facet] at h
  simp only [textOk]
  cases he : enumDecl ty with
  | some e =>
    rw [he] at h
    simp only [Bool.and_eq_true, Bool.or_eq_true, decide_eq_true_eq] at h ⊢
    obtain ⟨hg, h⟩ := h
    cases v with
    | enum en x =>
      have hk : it.classes = [.enum en] ∧ x ∈ en.values := by
        rcases hg with hg | hg <;> simpa only [kindOk, hg, Bool.and_eq_true, decide_eq_true_eq] using hk
      rw [hk.1] at h
      simp only [scalarText, Option.some.injEq] at hv
      subst hv
      have := List.all_eq_true.mp h x hk.2
      rw [hsel en x rfl] at this
      simp only [Bool.not_true, Bool.false_or, List.any_eq_true, sameStr_iff] at this
      obtain ⟨y, hy, rfl⟩ := this
      exact hy
    | none => simp [scalarText] at hv
    | _ => rcases hg with hg | hg <;> simp [kindOk, hg] at hk
  | none =>
    rw [he] at h
    simp only [QN.same_iff, Bool.or_eq_true] at h ⊢
    by_cases hb : ty = .q .xs (s% "boolean")
    · rw [if_pos hb] at h ⊢
      simp only [decide_eq_true_eq] at h
      simp only [kindOk, h] at hk
      cases v <;> simp [scalarText] at hk hv
      rename_i b
      subst hv
      cases b <;> simp
    · rw [if_neg hb] at h ⊢
      by_cases hi : ty = .q .xs (s% "int") ∨ ty = .q .xs (s% "integer")
      · rw [if_pos hi] at h ⊢
        rcases Bool.or_eq_true _ _ ▸ h with h | h <;> rw [decide_eq_true_eq] at h <;> simp only [kindOk, h] at hk <;> cases v <;> simp [scalarText] at hk hv <;>
          exact ⟨_, hv.symm⟩
      · rw [if_neg hi]; exact trivial

theorem same_any {l : List QN} {t : QN} : l.any t.same = true ↔ t ∈ l := by
  simp only [List.any_eq_true, QN.same_iff]
  constructor
  · rintro ⟨x, hx, rfl⟩; exact hx
  · exact fun h => ⟨t, h, rfl⟩

/-- The ranges are those of the types. -/
theorem rangeOf_mem {t : QN} {r : Int × Int} (h : rangeOf t = some r) : t ∈ rangeTypes := by
  simp only [rangeOf] at h
  split at h
  · rename_i n
    split at h
    · rename_i h'; rw [h']; decide
    · split at h
      · rename_i h'; rw [h']; decide
      · split at h
        · rename_i h'; rw [h']; decide
        · split at h
          · rename_i h'; rw [h']; decide
          · split at h
            · rename_i h'; rw [h']; decide
            · cases h
  · rename_i n
    split at h
    · rename_i h'; rw [h']; decide
    · cases h
  · cases h

/-- What is needed of texts. -/
structure Serves (ok : QN → Str → Prop) (P : Pt F → Bool) (o : Opts) (c : Cls) (T : QN) (as : List (Str × Val Cls F)) :
    Prop where
  scalars : ∀ it ∈ fastkml.itemsOf c, ∀ sel ty s, facet it sel ty = true → Declares T it.node ty → scalar it.get = true →
    kindOk P it (shown o.verbosity it.dflt.val (attr it.attr as)) = true →
    scalarText (shown o.verbosity it.dflt.val (attr it.attr as)) = some s →
    (∀ e x, shown o.verbosity it.dflt.val (attr it.attr as) = .enum e x → sel s = true) → ok ty s
  whens : ∀ it ∈ fastkml.itemsOf c, it.get = .subDtList → ∀ sel ty, facet it sel ty = true → ∀ r ∈ rows as, ∀ k,
    r.when_ = some k → ok ty k.toStr
  coords : ∀ it ∈ fastkml.itemsOf c, it.get = .coordsList → ∀ sel ty, facet it sel ty = true → ∀ s, ok ty s
  text : ∀ ty, facet freeItem (fun _ => true) ty = true → ∀ s, ok ty s

theorem typeIn_mem {ps : List Part} {q ty : QN} (h : (typeIn ps q).2 = some ty) : ∃ p ∈ ps, (q, some ty) ∈ p.elems := by
  unfold typeIn at h
  cases hf : ps.findSome? (fun p => p.elems.find? fun t => t.1.same q) with
  | none => rw [hf] at h; cases h
  | some t =>
    rw [hf] at h
    simp only at h
    obtain ⟨p, hp, ht⟩ := List.exists_of_findSome?_eq_some hf
    refine ⟨p, hp, ?_⟩
    have h1 := List.mem_of_find?_eq_some ht
    have h2 : t.1.same q = true := List.find?_some (p := fun t : Typed => t.1.same q) ht
    have : t = (q, some ty) := Prod.ext (QN.same_iff.mp h2) h
    rw [← this]; exact h1

/-- An element with only a text is valid for the type of an item. -/
theorem leaf_valid {ps : List Part} {it : Item Cls} {q : QN} (h : leafOk ps it q = true) {tag s : Str}
    (ht : ∀ ty, facet it (goesTo it q) ty = true → (∃ p ∈ ps, (q, some ty) ∈ p.elems) → ok ty s) :
    ∃ ty, (typeIn ps q).2 = some ty ∧ Valid ok ty (.leaf tag s) := by
  simp only [leafOk] at h
  cases hq : (typeIn ps q).2 with
  | none => rw [hq] at h; cases h
  | some ty =>
    rw [hq] at h
    simp only at h
    refine ⟨ty, rfl, ?_⟩
    cases hd : typeDecl ty with
    | none =>
      rw [hd] at h
      refine .simple hd rfl rfl fun s' hs => ?_
      simp only [Xml.leaf, Xml.text, Option.some.injEq] at hs
      subst hs
      exact ht ty h (typeIn_mem hq)
    | some d =>
      rw [hd] at h
      simp only [Bool.and_eq_true, List.all_eq_true, Bool.not_eq_true'] at h
      refine .complex hd (by simp [Xml.leaf, Xml.get, Xml.attrs, dget]) (fun a ha hr => ?_) (fun hx => ?_)
        (accepts_empty (List.all_eq_true.mpr h.1.2)) ?_
      · rw [h.2 a ha] at hr; cases hr
      · rw [h.1.1] at hx; cases hx
      · simp only [Xml.leaf, Xml.kids]; exact .nil

theorem typeIn_fst (ps : List Part) (q : QN) : (typeIn ps q).1 = q := by
  unfold typeIn
  split <;> rfl

theorem leaf_validAll {ps : List Part} {it : Item Cls} {q : QN} (h : leafOk ps it q = true) {tag s : Str}
    (htag : tag = tagOf q)
    (ht : ∀ ty, facet it (goesTo it q) ty = true → (∃ p ∈ ps, (q, some ty) ∈ p.elems) → ok ty s) {qs : List Typed} {ks : List Xml}
    (hr : ValidAll ok qs ks) : ValidAll ok (typeIn ps q :: qs) (.leaf tag s :: ks) := by
  obtain ⟨ty, h1, h2⟩ := leaf_valid (tag := tag) h ht
  have : typeIn ps q = (q, some ty) := Prod.ext (typeIn_fst ps q) h1
  rw [this]
  exact .cons (by simpa [Xml.leaf, Xml.tag] using htag) h2 hr

theorem validAll_append {qs qs' : List Typed} {ks ks' : List Xml} (h : ValidAll ok qs ks) (h' : ValidAll ok qs' ks') :
    ValidAll ok (qs ++ qs') (ks ++ ks') := by
  induction qs generalizing ks with
  | nil => cases h; exact h'
  | cons q qs ih =>
    cases h with
    | cons hn hv h => exact .cons hn hv (ih h)

/-! ## One item -/

theorem names_child {P : Pt F → Bool} {c : Cls} {it : Item Cls} (hp : place it.get = .child) {v : Val Cls F}
    (hk : kindOk P it v = true) {s : Str} (hv : scalarText v = some s) :
    .q (valNs c v) it.node ∈ namesOf c it ∧ ∀ e x, v = .enum e x → goesTo it (.q (valNs c v) it.node) s = true := by
  cases v with
  | enum en x =>
    have hg : it.get = .subEnum := by
      cases hg : it.get <;> simp [hg, place] at hp <;> simp [kindOk, hg] at hk <;> rfl
    simp only [kindOk, hg, Bool.and_eq_true, decide_eq_true_eq] at hk
    simp only [scalarText, Option.some.injEq] at hv
    subst hv
    simp only [namesOf, hg, goesTo, hk.1]
    cases en <;> simp [valNs]
    cases isSea x <;> simp
  | dt k =>
    have hg : it.get = .subDt := by
      cases hg : it.get <;> simp [hg, place] at hp <;> simp [kindOk, hg] at hk <;> rfl
    simp [namesOf, hg, valNs]
  | none => simp [scalarText] at hv
  | str _ | bool _ | int _ | float _ =>
    refine ⟨?_, fun e x h => by cases h⟩
    cases hg : it.get <;> simp [hg, place] at hp <;> simp [kindOk, hg] at hk <;> simp [namesOf, hg, valNs]
  | floats _ | coords _ | whens _ | items _ | list _ | obj _ _ _ _ => simp [scalarText] at hv

theorem childNs_uri {c : Cls} {ns : Str} {nss : NsMap} {as : List (Str × Val Cls F)}
    (hs : Placed c ns nss as) (v : Val Cls F) (node : Str) :
    childNs ns nss v ++ node = tagOf (.q (valNs c v) node) := by
  simp only [tagOf]
  congr 1
  cases v with
  | enum e x =>
    cases e <;> simp only [childNs, valNs, hs.ns]
    simp only [isSea, decide_eq_true_eq]
    split
    · exact hs.gx
    · exact hs.kml
  | dt k => exact hs.kml
  | _ => exact hs.ns

/-- The child for an object. -/
def kidOf (c : Cls) (it : Item Cls) : Val Cls F → Typed
  | .obj d _ _ _ => kidType c it d
  | _ => (elemName c, none)

theorem kidOf_map {c : Cls} {it : Item Cls} {l : List (Val Cls F)} (h : ∀ w ∈ l, ∃ d, classOf w = some d) :
    l.map (kidOf c it) = (l.filterMap classOf).map (kidType c it) := by
  induction l with
  | nil => rfl
  | cons w l ih =>
    have := ih fun x hx => h x (by simp [hx])
    obtain ⟨d, hd⟩ := h w (by simp)
    cases w <;> simp [classOf] at hd
    simp [kidOf, classOf, this]

theorem sublist_blocks {c : Cls} {it : Item Cls} {cs ds : List Cls} (h : cs.Sublist ds) :
    ∃ qss, All2 Shape.Fits (ds.map fun d => .one [kidType c it d]) qss ∧ qss.flatten = cs.map (kidType c it) := by
  induction h with
  | slnil => exact ⟨[], .nil, rfl⟩
  | cons d _ ih =>
    obtain ⟨qss, h1, h2⟩ := ih
    exact ⟨[] :: qss, .cons (by simp [Shape.Fits]) h1, by simpa using h2⟩
  | cons_cons d _ ih =>
    obtain ⟨qss, h1, h2⟩ := ih
    exact ⟨[kidType c it d] :: qss, .cons (by simp [Shape.Fits]) h1, by simp [h2]⟩

/-- What the elements of the parts of an object are. -/
def KidsValid (ok : QN → Str → Prop) (o : Opts) (c : Cls) (it : Item Cls) (w : Val Cls F) : Prop :=
  ∀ d ns nss bs x, w = .obj d ns nss bs → truthy fastkml w = .ok true → ser fastkml o w = .ok x →
    x.tag = tagOf (elemName d) ∧ ∃ t, (kidType c it d).2 = some t ∧ Valid ok t x

theorem kids_validAll {o : Opts} {c : Cls} {it : Item Cls} {l : List (Val Cls F)} {ks : List Xml}
    (h : All2 (fun w x => ser fastkml o w = .ok x) l ks) (ho : ∀ w ∈ l, ∃ d, classOf w = some d)
    (ht : ∀ w ∈ l, truthy fastkml w = .ok true) (hk : ∀ w ∈ l, KidsValid ok o c it w) :
    ValidAll ok (l.map (kidOf c it)) ks := by
  induction h with
  | nil => exact .nil
  | @cons w x l ks hw _ ih =>
    have ih := ih (fun w hw => ho w (by simp [hw])) (fun w hw => ht w (by simp [hw])) (fun w hw => hk w (by simp [hw]))
    obtain ⟨d, hd⟩ := ho w (by simp)
    cases w <;> simp [classOf] at hd
    subst hd
    rename_i d ns nss bs
    obtain ⟨h1, t, h2, h3⟩ := hk _ (by simp) d ns nss bs x rfl (ht _ (by simp)) hw
    simp only [List.map_cons, kidOf]
    have : kidType c it d = (elemName d, some t) := Prod.ext rfl h2
    rw [this]
    exact .cons h1 h3 ih

theorem clsList_mem {it : Item Cls} {d : Cls} : d ∈ clsList it ↔ .cls d ∈ it.classes := by
  simp only [clsList, List.mem_filterMap]
  constructor
  · rintro ⟨t, ht, h⟩
    cases t <;> simp at h
    subst h; exact ht
  · intro h
    exact ⟨_, h, rfl⟩

theorem nonEmpty_truthy {w : Val Cls F} (h : nonEmpty fastkml w = true) : truthy fastkml w = .ok true := by
  simp only [nonEmpty] at h
  cases hv : truthy fastkml w <;> rw [hv] at h
  · cases h
  · simp only at h; rw [h]

/-- The list attribute of the classes whose lists must be in order. -/
def orderedAttr : Cls → Str
  | .Style => s% "styles"
  | .ExtendedData => s% "elements"
  | .KML => s% "features"
  | _ => []

theorem ordered_attr {c : Cls} (hc : c = .Style ∨ c = .ExtendedData ∨ c = .KML) {it : Item Cls}
    (hit : it ∈ fastkml.itemsOf c) (hp : place it.get = .objects) : it.attr = orderedAttr c := by
  have key : ∀ c ∈ [Cls.Style, .ExtendedData, .KML], ∀ it ∈ fastkml.itemsOf c, place it.get = .objects →
      it.attr = orderedAttr c := by decide +kernel
  exact key c (by rcases hc with rfl | rfl | rfl <;> simp) it hit hp

theorem sure_text {P : Pt F → Bool} {c : Cls} {ns : Str} {nss : NsMap} {as : List (Str × Val Cls F)}
    (ht : typed fastkml P (.obj c ns nss as) = true) (htr : truthy fastkml (.obj c ns nss as) = .ok true)
    {it : Item Cls} (hit : it ∈ fastkml.itemsOf c) (hsure : sureText c it = true) (vb : Verbosity) :
    ∃ s, scalarText (shown vb it.dflt.val (attr it.attr as)) = some s := by
  have hr := (truthy_rule htr).mp rfl
  have hrule : ∃ l, (fastkml.info c).bool = .allTruthy l ∧ (it.get = .subText ∨ it.get = .attrText) ∧ it.dflt = .none ∧
      it.attr ∈ l := by
    simp only [sureText] at hsure
    cases hb : (fastkml.info c).bool <;> rw [hb] at hsure <;>
      simp only [Bool.and_eq_true, Bool.or_eq_true, decide_eq_true_eq, List.any_eq_true, sameStr_iff, Bool.false_eq_true] at hsure
    rename_i l
    obtain ⟨⟨h1, h2⟩, x, hx, rfl⟩ := hsure
    exact ⟨l, rfl, h1, h2, hx⟩
  obtain ⟨l, hb, hg, hd, hm⟩ := hrule
  rw [hb] at hr
  have h1 := hr it.attr hm
  have hk := (typed_obj.mp ht).1 it hit
  have hk : kindOk P it (attr it.attr as) = true := hk
  have : ∃ s, attr it.attr as = .str s ∧ s ≠ [] := by
    rcases hg with hg | hg <;> simp only [kindOk, hg] at hk <;> cases hv : attr it.attr as <;>
      rw [hv] at hk h1 <;> simp [truthy, info, Info.plain] at hk h1 ⊢ <;> exact h1
  obtain ⟨s, h2, h3⟩ := this
  refine ⟨s, ?_⟩
  rw [h2, hd]
  cases vb <;> simp [shown, Dflt.val, scalarEq, number, isNone, scalarText, h3]

/-- The block of children of an item. -/
theorem item_valid {P : Pt F → Bool} {o : Opts} {c : Cls} {ns : Str} {nss : NsMap} {as : List (Str × Val Cls F)}
    (ht : typed fastkml P (.obj c ns nss as) = true) (htr : truthy fastkml (.obj c ns nss as) = .ok true)
    (hs : Schematic o c ns nss as) {T : QN} (hse : Serves ok P o c T as) {ps : List Part} (hps : ps = partsOf 8 T) {ats : List XAttr} {quiet : List Str} {it : Item Cls}
    (hit : it ∈ fastkml.itemsOf c) (hok : itemValid ps ats quiet c it = true) {ks : List Xml}
    (hb : Block fastkml o ns nss it (value fastkml c as it.attr) ks) (hq : it.attr ∈ quiet → ks = [])
    (ho : ∀ w, place it.get = .object → attr it.attr as = w → KidsValid ok o c it w)
    (hl : ∀ l w, attr it.attr as = .list l → w ∈ l → KidsValid ok o c it w) :
    ∃ qss, All2 Shape.Fits (shapesOf ps quiet c it) qss ∧ ValidAll ok qss.flatten ks := by
  have W := (fastkml_writeOk c).item it hit
  have hkind : kindOk P it (attr it.attr as) = true := (typed_obj.mp ht).1 it hit
  simp only [shapesOf]
  by_cases hqt : quiet.any (sameStr it.attr) = true
  · rw [if_pos hqt]
    simp only [List.any_eq_true, sameStr_iff] at hqt
    obtain ⟨x, hx, rfl⟩ := hqt
    rw [hq hx]
    exact ⟨[], .nil, .nil⟩
  rw [if_neg hqt]
  have hst : place it.get ≠ .children → value fastkml c as it.attr = attr it.attr as :=
    fun h => (getattr_stored W h o as).2
  cases hp : place it.get with
  | text => simp only [Block, hp] at hb; subst hb; exact ⟨[], .nil, .nil⟩
  | attr => simp only [Block, hp] at hb; subst hb; exact ⟨[], .nil, .nil⟩
  | child =>
    simp only [Block, hp] at hb
    rw [hst (by rw [hp]; simp)] at hb
    simp only [itemValid, hp, Bool.or_eq_true, hqt, false_or, List.all_eq_true, Bool.false_eq_true] at hok
    have hsc : scalar it.get = true := by simp only [scalar, hp]
    have hks := kindOk_shown hsc W.dflt hkind o.verbosity
    simp only [scalarKid] at hb
    generalize hw : shown o.verbosity it.dflt.val (attr it.attr as) = w at hb hks
    cases htx : scalarText w with
    | none =>
      rw [htx] at hb
      subst hb
      refine ⟨[[]], .cons ?_ .nil, .nil⟩
      by_cases hsure : sureText c it = true
      · obtain ⟨s, h⟩ := sure_text ht htr hit hsure o.verbosity
        rw [hw, htx] at h; cases h
      · rw [if_neg hsure]; simp [Shape.Fits]
    | some s =>
      rw [htx] at hb
      subst hb
      obtain ⟨h1, h2⟩ := names_child (c := c) hp hks htx
      refine ⟨[[typeIn ps (.q (valNs c w) it.node)]], .cons ?_ .nil, ?_⟩
      · split <;> simp [Shape.Fits] <;> exact ⟨_, h1, rfl⟩
      · simp only [List.flatten_cons, List.flatten_nil, List.append_nil]
        refine leaf_validAll (hok _ h1) (childNs_uri hs.toPlaced w it.node) (fun ty hty hde => ?_) .nil
        subst hw
        exact hse.scalars it hit _ ty s hty (.inl (hps ▸ hde.imp fun p h => ⟨h.1, _, h.2⟩)) hsc hks htx h2
  | children =>
    simp only [Block, hp] at hb
    simp only [itemValid, hp, Bool.or_eq_true, hqt, false_or, List.all_eq_true, Bool.false_eq_true] at hok
    have hmap : ∀ {α : Type} (q : QN) (l : List α) (f : α → Xml), q ∈ namesOf c it →
        (∀ a ∈ l, ∃ s, f a = .leaf (tagOf q) s ∧ ∀ sel ty, facet it sel ty = true → ok ty s) → ks = l.map f →
        ∃ qss, All2 Shape.Fits [.many ((namesOf c it).map (typeIn ps))] qss ∧ ValidAll ok qss.flatten ks := by
      intro α q l f hqn hf hks
      subst hks
      refine ⟨[l.map fun _ => typeIn ps q], .cons ?_ .nil, ?_⟩
      · intro t ht
        obtain ⟨_, _, rfl⟩ := List.mem_map.mp ht
        exact List.mem_map.mpr ⟨q, hqn, rfl⟩
      · simp only [List.flatten_cons, List.flatten_nil, List.append_nil]
        clear hb hq
        induction l with
        | nil => exact .nil
        | cons a l ih =>
          obtain ⟨s, hs', hfree⟩ := hf a (by simp)
          simp only [List.map_cons, hs']
          exact leaf_validAll (hok q hqn) rfl (fun ty h _ => hfree _ ty h) (ih fun b hb => hf b (by simp [hb]))
    by_cases hd : it.get = .subDtList
    · have hw := W.whens.mp hd
      have hc : c = .Track := by
        have key : ∀ c ∈ Cls.all, (fastkml.info c).special = .track → c = .Track := by decide +kernel
        exact key c (Cls.mem_all c) hw.1
      have hval : value fastkml c as it.attr = .whens ((rows as).map (·.when_)) := by
        simp only [value, hw, and_self, if_true]
      rw [hval] at hb
      simp only [listKids, List.map_map] at hb
      refine hmap (.q .kml it.node) (rows as) _ (by simp [namesOf, hd]) (fun r hr => ?_) hb
      have := hs.whens hc r hr
      cases hwn : r.when_ with
      | none => exact absurd hwn this
      | some k => exact ⟨k.toStr, by simp only [Function.comp, hwn, tagOf, hs.kml],
          fun sel ty h => hse.whens it hit hd sel ty h r hr k hwn⟩
    · have hg : it.get = .coordsList := by
        cases hg : it.get <;> simp [hg, place] at hp hd ⊢
      have hval : ∃ l, value fastkml c as it.attr = .coords l := by
        have hw := W.coords.mp hg
        have h1 : it.attr ≠ s% "whens" := by rcases hw.2 with h | h <;> rw [h] <;> decide
        rcases hw.2 with h | h
        · exact ⟨_, by simp only [value, hw.1, h]; rfl⟩
        · exact ⟨_, by simp only [value, hw.1, h]; rfl⟩
      obtain ⟨l, hval⟩ := hval
      rw [hval] at hb
      simp only [listKids] at hb
      exact hmap (.q (xnsOf c) it.node) l _ (by simp [namesOf, hg]) (fun a _ => ⟨join [' '] (a.map (fmt o.precision)),
        by simp only [tagOf, ← hs.ns], fun sel ty h => hse.coords it hit hg sel ty h _⟩) hb
  | object =>
    simp only [Block, hp] at hb
    rw [hst (by rw [hp]; simp)] at hb
    rcases hb with ⟨_, rfl⟩ | ⟨x, h1, h2, rfl⟩
    · exact ⟨[[]], .cons (by simp [Shape.Fits]) .nil, .nil⟩
    · have hg : it.get = .xmlSub := by cases hg : it.get <;> simp [hg, place] at hp; rfl
      simp only [kindOk, hg] at hkind
      cases hv : attr it.attr as with
      | obj d ns' nss' bs =>
        rw [hv] at hkind h1 h2
        simp only [isInst, decide_eq_true_eq] at hkind
        obtain ⟨h3, t, h4, h5⟩ := ho _ hp hv d ns' nss' bs x rfl h1 h2
        refine ⟨[[kidType c it d]], .cons ?_ .nil, ?_⟩
        · simp only [Shape.Fits, List.mem_singleton, forall_eq, List.length_singleton, Nat.le_refl, and_true, List.mem_map]
          exact ⟨d, clsList_mem.mpr hkind, rfl⟩
        · have : kidType c it d = (elemName d, some t) := Prod.ext rfl h4
          simp only [List.flatten_cons, List.flatten_nil, List.append_nil]
          rw [this]
          exact .cons h3 h5 .nil
      | none => rw [hv] at h2; simp [ser] at h2
      | _ => rw [hv] at hkind; simp [isInst] at hkind
  | objects =>
    simp only [Block, hp] at hb
    rw [hst (by rw [hp]; simp)] at hb
    obtain ⟨l, hv, _, hall⟩ := hb
    have hg : it.get = .xmlSubList := by cases hg : it.get <;> simp [hg, place] at hp; rfl
    simp only [kindOk, hg, hv, List.all_eq_true] at hkind
    have hcls : ∀ w ∈ l.filter (nonEmpty fastkml), ∃ d, classOf w = some d ∧ d ∈ clsList it := by
      intro w hw
      have := hkind w (List.mem_filter.mp hw).1
      cases w <;> simp [isInst] at this
      exact ⟨_, rfl, clsList_mem.mpr this⟩
    have hva : ValidAll ok ((l.filter (nonEmpty fastkml)).map (kidOf c it)) ks :=
      kids_validAll hall (fun w hw => (hcls w hw).imp fun _ h => h.1)
        (fun w hw => nonEmpty_truthy (List.mem_filter.mp hw).2) (fun w hw => hl l w hv (List.mem_filter.mp hw).1)
    have hmem : ∀ a, a = it.attr → members a as = l.filter (nonEmpty fastkml) := by
      rintro a rfl; simp only [members, hv]
    have hmany : ∃ qss, All2 Shape.Fits [.many ((clsList it).map (kidType c it))] qss ∧ ValidAll ok qss.flatten ks := by
      refine ⟨[(l.filter (nonEmpty fastkml)).map (kidOf c it)], .cons ?_ .nil, by simpa using hva⟩
      intro q hq
      obtain ⟨w, hw, rfl⟩ := List.mem_map.mp hq
      obtain ⟨d, hd, hm⟩ := hcls w hw
      cases w <;> simp [classOf] at hd
      subst hd
      exact List.mem_map.mpr ⟨_, hm, rfl⟩
    cases c
    case Style =>
      have ha : it.attr = s% "styles" := ordered_attr (Or.inl rfl) hit hp
      have hord : ((members (s% "styles") as).filterMap classOf).Sublist _ := hs.order
      rw [hmem _ ha.symm] at hord
      obtain ⟨qss, h1, h2⟩ := sublist_blocks (c := .Style) (it := it) hord
      refine ⟨qss, h1, ?_⟩
      rw [h2, ← kidOf_map fun w hw => (hcls w hw).imp fun _ h => h.1]
      exact hva
    case ExtendedData =>
      have ha : it.attr = s% "elements" := ordered_attr (Or.inr (Or.inl rfl)) hit hp
      obtain ⟨l1, l2, h1, h2, h3⟩ : ∃ l m, members (s% "elements") as = l ++ m ∧ _ := hs.order
      rw [hmem _ ha.symm] at h1
      refine ⟨[l1.map (kidOf .ExtendedData it), l2.map (kidOf .ExtendedData it)], .cons ?_ (.cons ?_ .nil), ?_⟩
      · intro q hq
        obtain ⟨w, hw, rfl⟩ := List.mem_map.mp hq
        have := h2 w hw
        cases w <;> simp [classOf] at this
        subst this; simp [kidOf]
      · intro q hq
        obtain ⟨w, hw, rfl⟩ := List.mem_map.mp hq
        have := h3 w hw
        cases w <;> simp [classOf] at this
        subst this; simp [kidOf]
      · rw [h1] at hva; simpa using hva
    case KML =>
      have ha : it.attr = s% "features" := ordered_attr (Or.inr (Or.inr rfl)) hit hp
      obtain ⟨l1, l2, h1, n1, n2, h2, h3⟩ : ∃ l m, members (s% "features") as = l ++ m ∧ _ := hs.order
      rw [hmem _ ha.symm] at h1
      refine ⟨[l1.map (kidOf .KML it), l2.map (kidOf .KML it)], .cons ⟨?_, by simpa using n1⟩ (.cons ⟨?_, by simpa using n2⟩ .nil), ?_⟩
      · intro q hq
        obtain ⟨w, hw, rfl⟩ := List.mem_map.mp hq
        have := h2 w hw
        cases w <;> simp [classOf] at this
        subst this; simp [kidOf]
      · intro q hq
        obtain ⟨w, hw, rfl⟩ := List.mem_map.mp hq
        have := h3 w hw
        obtain ⟨d, hd, hm⟩ := hcls w (by rw [h1]; simp [hw])
        cases w <;> simp [classOf] at hd
        subst hd
        exact List.mem_map.mpr ⟨_, List.mem_filter.mpr ⟨hm, by simpa [classOf] using this⟩, rfl⟩
      · rw [h1] at hva; simpa using hva
    all_goals exact hmany

/-! ## One object -/

theorem blocks_valid {items : List (Item Cls)} {ps : List Part} {quiet : List Str} {c : Cls} {R : Item Cls → List Xml → Prop}
    {blocks : List (List Xml)} (h : All2 R items blocks)
    (hi : ∀ it ∈ items, ∀ ks, R it ks → ∃ qss, All2 Shape.Fits (shapesOf ps quiet c it) qss ∧ ValidAll ok qss.flatten ks) :
    ∃ qss, All2 Shape.Fits (items.flatMap (shapesOf ps quiet c)) qss ∧ ValidAll ok qss.flatten blocks.flatten := by
  induction h with
  | nil => exact ⟨[], .nil, .nil⟩
  | @cons it ks items blocks h1 _ ih =>
    obtain ⟨qss, h2, h3⟩ := ih fun it hit => hi it (by simp [hit])
    obtain ⟨qss', h4, h5⟩ := hi it (by simp) ks h1
    refine ⟨qss' ++ qss, ?_, ?_⟩
    · rw [List.flatMap_cons]; exact h4.append h2
    · rw [List.flatten_append, List.flatten_cons]; exact validAll_append h5 h3

/-- An object is valid for a type that fits its class, if its parts are valid. -/
theorem object_valid {P : Pt F → Bool} {o : Opts} {c : Cls} {ns : Str} {nss : NsMap} {as : List (Str × Val Cls F)}
    (ht : typed fastkml P (.obj c ns nss as) = true) (htr : truthy fastkml (.obj c ns nss as) = .ok true)
    (hs : Schematic o c ns nss as) {e : Xml} (he : ser fastkml o (.obj c ns nss as) = .ok e) {t : QN} {quiet : List Str}
    (hok : classValid t quiet c = true) (hse : Serves ok P o c t as)
    (hq : ∀ it ∈ fastkml.itemsOf c, it.attr ∈ quiet → ∀ ks, Block fastkml o ns nss it (value fastkml c as it.attr) ks → ks = [])
    (ho : ∀ it ∈ fastkml.itemsOf c, ∀ w, place it.get = .object → attr it.attr as = w → KidsValid ok o c it w)
    (hl : ∀ it ∈ fastkml.itemsOf c, ∀ l w, attr it.attr as = .list l → w ∈ l → KidsValid ok o c it w) : Valid ok t e := by
  have W := written ht he
  have hns : ns ≠ [] := by rw [hs.ns]; cases xnsOf c <;> simp [uri]
  have hattr : ∀ p ∈ e.attrs, ∃ it ∈ fastkml.itemsOf c, place it.get = .attr ∧ p.1 = it.node := fun p hp => by
    rcases W.noAttr p hp with h | h
    · exact h
    · exact absurd h.2.1 hns
  have hst : ∀ it ∈ fastkml.itemsOf c, place it.get ≠ .children → value fastkml c as it.attr = attr it.attr as :=
    fun it hit h => (getattr_stored ((fastkml_writeOk c).item it hit) h o as).2
  obtain ⟨blocks, hb, hk⟩ := W.kids
  simp only [classValid] at hok
  cases hd : typeDecl t with
  | none =>
    rw [hd] at hok
    simp only [Bool.and_eq_true, List.all_eq_true, decide_eq_true_eq] at hok
    refine .simple hd ?_ ?_ ?_
    · cases ha : e.attrs with
      | nil => rfl
      | cons p l =>
        obtain ⟨it, hit, hp, _⟩ := hattr p (by simp [ha])
        rw [hok.1 it hit] at hp; cases hp
    · rw [hk]
      have : ∀ b ∈ blocks, b = [] := fun b hb' => by
        obtain ⟨it, hit, h⟩ := hb.mem_right hb'
        simp only [Block, hok.1 it hit] at h
        exact h
      exact List.flatten_eq_nil_iff.mpr this
    · intro s _
      exact hse.text t hok.2 s
  | some ty =>
    rw [hd] at hok
    simp only [Bool.and_eq_true] at hok
    obtain ⟨⟨⟨hfit, hitems⟩, hreq⟩, htext⟩ := hok
    rw [List.all_eq_true] at hitems hreq
    obtain ⟨qss, h1, h2⟩ := blocks_valid (ps := partsOf 8 t) (quiet := quiet) (c := c) hb fun it hit ks hks =>
      item_valid ht htr hs hse rfl hit (hitems it hit) hks (fun h => hq it hit h ks hks) (ho it hit) (hl it hit)
    refine .complex hd (fun k s hks => ?_) (fun a ha hr => ?_) (fun hx => ?_) (fits_sound hfit h1) (hk ▸ h2)
    · obtain ⟨it, hit, hpl, hn⟩ := hattr (k, s) (dget_mem hks)
      have hok := hitems it hit
      simp only [itemValid, hpl, List.any_eq_true, Bool.and_eq_true, sameStr_iff] at hok
      obtain ⟨a, ha, hna, hfa⟩ := hok
      refine ⟨a, ha, hna.trans hn.symm, fun at_ hat => ?_⟩
      rw [hat] at hfa
      have hget := W.attr it hit hpl
      rw [hst it hit (by rw [hpl]; simp)] at hget
      simp only [attrText, hpl] at hget
      have hsc : scalar it.get = true := by simp only [scalar, hpl]
      have hkind : kindOk P it (attr it.attr as) = true := (typed_obj.mp ht).1 it hit
      refine hse.scalars it hit _ at_ s hfa (.inr ⟨a, ha, hna, hat⟩) hsc
        (kindOk_shown hsc ((fastkml_writeOk c).item it hit).dflt hkind o.verbosity) ?_ (fun _ _ _ => rfl)
      rw [← hget, ← hn]
      exact hks
    · have := hreq a ha
      simp only [requiredOk, hr, Bool.not_true, Bool.false_or, List.any_eq_true, Bool.and_eq_true, decide_eq_true_eq, sameStr_iff] at this
      obtain ⟨it, hit, ⟨hg, hn⟩, hsure⟩ := this
      have hpl : place it.get = .attr := by rw [hg]; rfl
      obtain ⟨s, h⟩ := sure_text ht htr hit hsure o.verbosity
      rw [← hn, W.attr it hit hpl, hst it hit (by rw [hpl]; simp)]
      simp only [attrText, hpl, h]
      simp
    · rw [hx, Bool.false_or, List.all_eq_true] at htext
      exact W.noText fun it hit => by simpa using htext it hit

/-! ## C44: the output is valid -/

/-- What is needed of the texts of an object, for each type its element can have. -/
def AllServe (ok : QN → Str → Prop) (P : Pt F → Bool) (o : Opts) (v : Val Cls F) : Prop :=
  Everywhere (fun c _ _ as => ∀ T, (elemType c = some T ∨ c = .Icon ∧ T = basicLink) → Serves ok P o c T as) v

theorem tree_valid {P : Pt F → Bool} {o : Opts} (v : Val Cls F) : ∀ c ns nss as e, v = .obj c ns nss as →
    typed fastkml P v = true → AllSchematic o v → AllServe ok P o v → truthy fastkml v = .ok true → ser fastkml o v = .ok e →
    (∀ t, elemType c = some t → Valid ok t e) ∧ (c = .Icon → OnlyHref o as → Valid ok basicLink e) := by
  refine Val.objInd (P := fun v => ∀ c ns nss as e, v = .obj c ns nss as →
    typed fastkml P v = true → AllSchematic o v → AllServe ok P o v → truthy fastkml v = .ok true → ser fastkml o v = .ok e →
    (∀ t, elemType c = some t → Valid ok t e) ∧ (c = .Icon → OnlyHref o as → Valid ok basicLink e)) ?_ ?_ v
  · intro c ns nss as ih ihl c' ns' nss' as' e heq ht hall hserve htr he
    cases heq
    have hs : Schematic o c ns nss as := hall c ns nss as .self
    have hsv := hserve c ns nss as .self
    -- the parts are valid
    have hkid : ∀ it ∈ fastkml.itemsOf c, ∀ w, kindOk P it (attr it.attr as) = true →
        (∀ d ns nss bs x, w = .obj d ns nss bs → truthy fastkml w = .ok true → ser fastkml o w = .ok x →
          (∀ t, elemType d = some t → Valid ok t x) ∧ (d = .Icon → OnlyHref o bs → Valid ok basicLink x)) →
        typed fastkml P w = true → AllSchematic o w → AllServe ok P o w →
        (attr it.attr as = w ∨ ∃ l, attr it.attr as = .list l ∧ w ∈ l) → KidsValid ok o c it w := by
      intro it hit w hkind hih htw hsw hvw hpos d ns' nss' bs x hw htr' hx
      obtain ⟨h1, h2⟩ := hih d ns' nss' bs x hw htr' hx
      subst hw
      have hsd : Schematic o d ns' nss' bs := hsw d ns' nss' bs .self
      refine ⟨by rw [(written htw hx).tag, hsd.ns]; rfl, ?_⟩
      simp only [kidType]
      by_cases hic : (decide (c = .IconStyle) && sameStr it.attr (s% "icon")) = true
      · rw [if_pos hic]
        simp only [Bool.and_eq_true, decide_eq_true_eq, sameStr_iff] at hic
        obtain ⟨rfl, ha⟩ := hic
        obtain ⟨hg, hcl⟩ := icon_item hit ha
        rcases hpos with hpos | ⟨l, hl, _⟩
        · simp only [kindOk, hg, hpos, isInst, hcl, List.mem_singleton, PyType.cls.injEq, decide_eq_true_eq] at hkind
          exact ⟨basicLink, rfl, h2 hkind (hs.icon rfl d ns' nss' bs (ha ▸ hpos))⟩
        · simp [kindOk, hg, hl, isInst] at hkind
      · rw [if_neg hic]
        cases hed : elemType d with
        | none => exact absurd hed hsd.declared
        | some t => exact ⟨t, rfl, h1 t hed⟩
    have hkinds := (typed_obj.mp ht).1
    have ho : ∀ it ∈ fastkml.itemsOf c, ∀ w, place it.get = .object → attr it.attr as = w → KidsValid ok o c it w := by
      intro it hit w _ hw d ns' nss' bs x hwo htr' hx
      have hm : (it.attr, w) ∈ as := attrOf_mem (attrs := as) hw (by rw [hwo]; simp)
      exact hkid it hit w (hkinds it hit) (fun d ns nss bs x h => ih it.attr w hm d ns nss bs x h
        ((typed_obj.mp ht).2.2.1 _ _ hm) (everywhere_attr hall hm) (everywhere_attr hserve hm)) ((typed_obj.mp ht).2.2.1 _ _ hm)
        (everywhere_attr hall hm) (everywhere_attr hserve hm) (Or.inl hw) d ns' nss' bs x hwo htr' hx
    have hl : ∀ it ∈ fastkml.itemsOf c, ∀ l w, attr it.attr as = .list l → w ∈ l → KidsValid ok o c it w := by
      intro it hit l w hl hw
      have hm : (it.attr, .list l) ∈ as := attrOf_mem (attrs := as) hl (by simp)
      have ht' := (typed_obj.mp ht).2.2.2 _ _ hm w hw
      have hs' := everywhere_member (everywhere_attr hall hm) hw
      have hv' := everywhere_member (everywhere_attr hserve hm) hw
      exact hkid it hit w (hkinds it hit) (fun d ns nss bs x h => ihl it.attr l hm w hw d ns nss bs x h ht' hs' hv') ht' hs' hv'
        (Or.inr ⟨l, hl, hw⟩)
    refine ⟨fun t hty => ?_, fun hc hon => ?_⟩
    · by_cases hd : c = .Document
      · subst hd
        have hq : ∀ a, (a = s% "features" ∨ a = s% "schemata") → members a as = [] →
            ∀ it ∈ fastkml.itemsOf .Document, it.attr ∈ [a] → ∀ ks,
            Block fastkml o ns nss it (value fastkml .Document as it.attr) ks → ks = [] := by
          intro a ha hm it hit hia ks hb
          rw [List.mem_singleton] at hia
          have hg := document_item hit (hia ▸ ha)
          have hp : place it.get = .objects := by rw [hg]; rfl
          simp only [Block, hp] at hb
          rw [(getattr_stored ((fastkml_writeOk _).item it hit) (by rw [hp]; simp) o as).2] at hb
          obtain ⟨l, hv, _, hall⟩ := hb
          have : members a as = l.filter (nonEmpty fastkml) := by
            have hv : attr it.attr as = .list l := hv
            rw [← hia]; simp only [members, hv]
          rw [← this, hm] at hall
          cases hall; rfl
        have hord : members (s% "features") as = [] ∨ members (s% "schemata") as = [] := hs.order
        rcases hord with h | h
        · exact object_valid ht htr hs he (fastkml_classValid .Document hty (quiet := [s% "features"]) (by simp [quietOf])) (hsv t (.inl hty))
            (hq _ (Or.inl rfl) h) ho hl
        · exact object_valid ht htr hs he (fastkml_classValid .Document hty (quiet := [s% "schemata"]) (by simp [quietOf])) (hsv t (.inl hty))
            (hq _ (Or.inr rfl) h) ho hl
      · have hqo : ([] : List Str) ∈ quietOf c := by cases c <;> first | exact absurd rfl hd | exact List.mem_singleton.mpr rfl
        exact object_valid ht htr hs he (fastkml_classValid c hty hqo) (hsv t (.inl hty)) (fun _ _ h => by cases h) ho hl
    · subst hc
      refine object_valid ht htr hs he basic_classValid (hsv basicLink (.inr ⟨rfl, rfl⟩)) (fun it hit ha ks hb => ?_) ho hl
      have hp := icon_extra hit ha
      simp only [Block, hp] at hb
      rw [(getattr_stored ((fastkml_writeOk _).item it hit) (by rw [hp]; simp) o as).2] at hb
      have hn : attrOf it.attr as = .none := hon.2 _ ha
      rw [hn] at hb
      subst hb
      have hv := hon.1
      cases hvb : o.verbosity with
      | verbose => exact absurd hvb hv
      | normal => simp [shown, scalarKid, scalarText]
      | terse => simp only [shown]; split <;> simp [scalarKid, scalarText]
  · intro v hv c ns nss as e heq
    exact absurd heq (hv c ns nss as)

/-- Enumerations, booleans and integers need no conditions. -/
theorem serves_textOk (P : Pt F → Bool) (o : Opts) (c : Cls) (T : QN) (as : List (Str × Val Cls F)) :
    Serves textOk P o c T as := by
  have free : ∀ (it : Item Cls) (sel : Str → Bool) (ty : QN) (s : Str),
      (∀ g ∈ [GetFn.subEnum, .attrEnum, .subBool, .subInt, .attrInt], it.get ≠ g) → facet it sel ty = true → textOk ty s := by
    intro it sel ty s hne h
    simp only [facet] at h
    simp only [textOk]
    cases he : enumDecl ty with
    | some e => rw [he] at h; simp [hne] at h
    | none =>
      rw [he] at h
      simp only [QN.same_iff, Bool.or_eq_true] at h ⊢
      by_cases hb : ty = .q .xs (s% "boolean")
      · rw [if_pos hb] at h; simp [hne] at h
      · rw [if_neg hb] at h ⊢
        by_cases hi : ty = .q .xs (s% "int") ∨ ty = .q .xs (s% "integer")
        · rw [if_pos hi] at h; simp [hne] at h
        · rw [if_neg hi]; exact trivial
  exact {
    scalars := fun it _ sel ty s hf _ hsc hk hv hsel => facet_text hf hk hsc hv hsel
    whens := fun it _ hg sel ty hf r _ k _ => free it sel ty _ (by rw [hg]; decide) hf
    coords := fun it _ hg sel ty hf s => free it sel ty _ (by rw [hg]; decide) hf
    text := fun ty hf s => free freeItem _ ty s (by decide) hf }

/-- The simple types, sorted by what they are about. -/
theorem lexOk_cases {ty : QN} (he : enumDecl ty = none) (hb : ty ≠ .q .xs (s% "boolean"))
    (hi : ¬ (ty = .q .xs (s% "int") ∨ ty = .q .xs (s% "integer"))) {g : GetFn} (hk : writerFits g ty = true) :
    ((ty = .q .xs (s% "double") ∨ ty = .q .xs (s% "float")) ∧ g ∈ [GetFn.subFloat, .attrFloat, .subInt, .attrInt]) ∨
    ((∃ lo hi, rangeOf ty = some (lo, hi)) ∧ g ∈ [GetFn.subFloat, .attrFloat]) ∨
    (ty = .q .kml (s% "dateTimeType") ∧ g ∈ [GetFn.subDt, .subDtList]) ∨
    (ty ∈ notedTypes ∧ g ∈ [GetFn.subText, .attrText]) ∨ ∀ s, lexOk ty s := by
  simp only [writerFits, QN.same_iff, Bool.or_eq_true, same_any] at hk
  by_cases hd : ty = .q .xs (s% "double") ∨ ty = .q .xs (s% "float")
  · rw [if_pos hd] at hk
    simp only [Bool.or_eq_true, decide_eq_true_eq] at hk
    exact .inl ⟨hd, by rcases hk with ((h | h) | h) | h <;> simp [h]⟩
  rw [if_neg hd] at hk
  by_cases hr : ty ∈ rangeTypes
  · rw [if_pos hr] at hk
    simp only [Bool.or_eq_true, decide_eq_true_eq] at hk
    refine .inr (.inl ⟨?_, by rcases hk with h | h <;> simp [h]⟩)
    have key : ∀ ty ∈ rangeTypes, ∃ r, rangeOf ty = some r := by
      have : ∀ ty ∈ rangeTypes, (rangeOf ty).isSome = true := by decide +kernel
      exact fun ty h => Option.isSome_iff_exists.mp (this ty h)
    obtain ⟨⟨lo, hi⟩, h⟩ := key ty hr
    exact ⟨lo, hi, h⟩
  rw [if_neg hr] at hk
  by_cases ht : ty = .q .kml (s% "dateTimeType")
  · rw [if_pos ht] at hk
    simp only [Bool.or_eq_true, decide_eq_true_eq] at hk
    exact .inr (.inr (.inl ⟨ht, by rcases hk with h | h <;> simp [h]⟩))
  rw [if_neg ht] at hk
  by_cases hn : ty ∈ notedTypes
  · rw [if_pos hn] at hk
    simp only [Bool.or_eq_true, decide_eq_true_eq] at hk
    exact .inr (.inr (.inr (.inl ⟨hn, by rcases hk with h | h <;> simp [h]⟩)))
  refine .inr (.inr (.inr (.inr fun s => ?_)))
  have hro : rangeOf ty = none := by
    cases h : rangeOf ty with
    | none => rfl
    | some r => exact absurd (rangeOf_mem h) hr
  simp only [not_or] at hi hd
  simp only [notedTypes, List.mem_cons, List.not_mem_nil, or_false, not_or] at hn
  simp [lexOk, he, hb, hi, hd, hro, ht, hn]

/-- `lexOk` for `dateTimeType`. -/
theorem lexOk_moment {s : Str} (h : MomentText s) : lexOk (.q .kml (s% "dateTimeType")) s := by
  have he : enumDecl (.q .kml (s% "dateTimeType")) = none := by decide +kernel
  have hr : rangeOf (.q .kml (s% "dateTimeType")) = none := by decide +kernel
  simp only [lexOk, he, hr]
  simpa using padded_of h

/-- `lexOk` for `double` and `float`. -/
theorem lexOk_double {ty : QN} (ht : ty = .q .xs (s% "double") ∨ ty = .q .xs (s% "float")) {s : Str} (h : Padded DoubleText s) :
    lexOk ty s := by
  have he : enumDecl ty = none := by rcases ht with rfl | rfl <;> decide +kernel
  have h1 : ty ≠ .q .xs (s% "boolean") := by rcases ht with rfl | rfl <;> decide
  have h2 : ty ≠ .q .xs (s% "int") := by rcases ht with rfl | rfl <;> decide
  have h3 : ty ≠ .q .xs (s% "integer") := by rcases ht with rfl | rfl <;> decide
  simp only [lexOk, he, if_neg h1, if_neg h2, if_neg h3]
  rw [if_pos ht]
  exact h

/-- `lexOk` for ranges. -/
theorem lexOk_range {ty : QN} {lo hi : Int} (ht : rangeOf ty = some (lo, hi)) {s : Str} :
    lexOk ty s ↔ Padded (RangeText lo hi) s := by
  have key : ∀ ty ∈ rangeTypes, enumDecl ty = none ∧ ty ≠ .q .xs (s% "boolean") ∧ ty ≠ .q .xs (s% "int") ∧
      ty ≠ .q .xs (s% "integer") ∧ ¬ (ty = .q .xs (s% "double") ∨ ty = .q .xs (s% "float")) := by decide +kernel
  obtain ⟨he, h1, h2, h3, h4⟩ := key ty (rangeOf_mem ht)
  simp only [lexOk, he, if_neg h1, if_neg h2, if_neg h3, ht]
  rw [if_neg h4]

/-- Values of the declared types have texts of these types. -/
theorem serves_lexOk (P : Pt F → Bool) {o : Opts} {c : Cls} {ns : Str} {nss : NsMap} {as : List (Str × Val Cls F)}
    (hv : Valued o c ns nss as) {T : QN} (hT : elemType c = some T ∨ c = .Icon ∧ T = basicLink) : Serves lexOk P o c T as := by
  have free : ∀ (it : Item Cls) (sel : Str → Bool) (ty : QN) (s : Str),
      (∀ g ∈ [GetFn.subEnum, .attrEnum, .subBool, .subInt, .attrInt, .subFloat, .attrFloat, .subDt, .subText, .attrText],
        it.get ≠ g) → facet it sel ty = true → lexOk ty s ∨ ty = .q .kml (s% "dateTimeType") ∧ it.get = .subDtList := by
    intro it sel ty s hne h
    simp only [facet] at h
    cases he : enumDecl ty with
    | some e => rw [he] at h; simp [hne] at h
    | none =>
      rw [he] at h
      simp only [QN.same_iff, Bool.or_eq_true] at h
      by_cases hb : ty = .q .xs (s% "boolean")
      · rw [if_pos hb] at h; simp [hne] at h
      · rw [if_neg hb] at h
        by_cases hi : ty = .q .xs (s% "int") ∨ ty = .q .xs (s% "integer")
        · rw [if_pos hi] at h; simp [hne] at h
        · rw [if_neg hi] at h
          rcases lexOk_cases he hb hi h with h | h | h | h | h
          · have := h.2; simp [hne] at this
          · have := h.2; simp [hne] at this
          · have := h.2; simp [hne] at this; exact .inr ⟨h.1, this⟩
          · have := h.2; simp [hne] at this
          · exact .inl (h s)
  refine ⟨?_, ?_, ?_, ?_⟩
  · intro it hit sel ty s hf hde hsc hk htx hsel
    have hfine := hv.scalars T hT it hit ty hde
    generalize shown o.verbosity it.dflt.val (attr it.attr as) = w at hk htx hsel hfine
    have h := hf
    simp only [facet] at h
    cases he : enumDecl ty with
    | some e =>
      have := facet_text hf hk hsc htx hsel
      simp only [textOk, he] at this
      simp only [lexOk, he]
      exact this
    | none =>
      rw [he] at h
      simp only [QN.same_iff, Bool.or_eq_true] at h
      by_cases hb : ty = .q .xs (s% "boolean")
      · have := facet_text hf hk hsc htx hsel
        simp only [textOk, he, if_pos hb] at this
        simp only [lexOk, he, if_pos hb]
        exact padded_of this
      · rw [if_neg hb] at h
        by_cases hi : ty = .q .xs (s% "int") ∨ ty = .q .xs (s% "integer")
        · rw [if_pos hi] at h
          have hw : ∃ i, w = .int i ∧ s = intRepr i := by
            rcases Bool.or_eq_true _ _ ▸ h with h | h <;> rw [decide_eq_true_eq] at h <;> simp only [kindOk, h] at hk <;>
              cases w <;> simp [scalarText] at hk htx <;> exact ⟨_, rfl, htx.symm⟩
          obtain ⟨i, rfl, rfl⟩ := hw
          simp only [lexOk, he, if_neg hb]
          by_cases h32 : ty = .q .xs (s% "int")
          · rw [if_pos h32]
            exact padded_of ⟨i, integerText_intRepr i, hfine.1 h32⟩
          · rw [if_neg h32, if_pos (hi.resolve_left h32)]
            exact padded_of ⟨i, integerText_intRepr i⟩
        · rw [if_neg hi] at h
          rcases lexOk_cases he hb hi h with ⟨h1, h2⟩ | ⟨⟨lo, hi', h1⟩, h2⟩ | ⟨h1, h2⟩ | ⟨h1, h2⟩ | h
          · have hw : (∃ i, w = .int i ∧ s = intRepr i) ∨ ∃ f, w = .float f ∧ s = PyExt.repr f := by
              simp only [List.mem_cons, List.not_mem_nil, or_false] at h2
              rcases h2 with h2 | h2 | h2 | h2 <;> simp only [kindOk, h2] at hk <;>
                cases w <;> simp [scalarText] at hk htx ⊢ <;> exact htx.symm
            rcases hw with ⟨i, rfl, rfl⟩ | ⟨f, rfl, rfl⟩
            · exact lexOk_double h1 (padded_of (doubleText_intRepr i))
            · exact hfine
          · have hw : (∃ i, w = .int i ∧ s = intRepr i) ∨ ∃ f, w = .float f ∧ s = PyExt.repr f := by
              simp only [List.mem_cons, List.not_mem_nil, or_false] at h2
              rcases h2 with h2 | h2 <;> simp only [kindOk, h2] at hk <;>
                cases w <;> simp [scalarText] at hk htx ⊢ <;> exact htx.symm
            rcases hw with ⟨i, rfl, rfl⟩ | ⟨f, rfl, rfl⟩
            · exact (lexOk_range h1).mpr (padded_of (rangeText_intRepr (hfine.2 _ _ h1)))
            · exact hfine
          · have hw : ∃ k, w = .dt k ∧ s = k.toStr := by
              simp only [List.mem_cons, List.not_mem_nil, or_false] at h2
              rcases h2 with h2 | h2
              · simp only [kindOk, h2] at hk
                cases w <;> simp [scalarText] at hk htx ⊢
                exact htx.symm
              · rw [h2] at hsc; exact absurd hsc (by decide)
            obtain ⟨k, rfl, rfl⟩ := hw
            subst h1
            exact lexOk_moment (momentText_toStr hfine.1 hfine.2.1 hfine.2.2)
          · have hw : w = .str s ∧ s ≠ [] := by
              simp only [List.mem_cons, List.not_mem_nil, or_false] at h2
              rcases h2 with h2 | h2 <;> simp only [kindOk, h2] at hk <;>
                cases w <;> simp [scalarText] at hk htx ⊢ <;> exact ⟨htx.2, htx.2 ▸ htx.1⟩
            obtain ⟨rfl, hne⟩ := hw
            exact hfine hne
          · exact h s
  · intro it hit hg sel ty hf r hr k hk
    rcases free it sel ty k.toStr (by rw [hg]; decide) hf with h | ⟨h, -⟩
    · exact h
    · subst h
      have := hv.whens r hr k hk
      exact lexOk_moment (momentText_toStr this.1 this.2.1 this.2.2)
  · intro it hit hg sel ty hf s
    rcases free it sel ty s (by rw [hg]; decide) hf with h | ⟨-, h⟩
    · exact h
    · rw [hg] at h; cases h
  · intro ty hf s
    rcases free freeItem _ ty s (by decide) hf with h | ⟨-, h⟩
    · exact h
    · cases h

/-- **C44.** The element of an object that is not empty is valid for the type that the
schemas declare for the element of its class: the children come in the order of the
schema, required children and attributes are there, all names are declared, and the
texts of enumerations, booleans and integers are values of their types.  The conditions
(`Schematic`) are that the objects are in the namespaces of the schemas, and that lists
of different things are in order. -/
theorem C44_valid {P : Pt F → Bool} {o : Opts} {c : Cls} {ns : Str} {nss : NsMap} {as : List (Str × Val Cls F)} {e : Xml}
    (ht : typed fastkml P (.obj c ns nss as) = true) (hs : AllSchematic o (.obj c ns nss as))
    (htr : truthy fastkml (.obj c ns nss as) = .ok true) (he : ser fastkml o (.obj c ns nss as) = .ok e) :
    ∃ t, elemType c = some t ∧ e.tag = tagOf (elemName c) ∧ Valid textOk t e := by
  have h := hs c ns nss as .self
  cases hty : elemType c with
  | none => exact absurd hty h.declared
  | some t =>
    refine ⟨t, rfl, ?_, (tree_valid _ c ns nss as e rfl ht hs
      (fun c _ _ as _ T _ => serves_textOk P o c T as) htr he).1 t hty⟩
    rw [(written ht he).tag, h.ns]; rfl

/-- **C44** with all simple types: if, besides, the values are values of the types that
the schemas declare for them (`Valued`: numbers in the range of an angle, colours of eight
hexadecimal digits, ids that are names, years from 1000 where a year or a month is given
alone, and so on), then the element is valid including all its texts. -/
theorem C44_values {P : Pt F → Bool} {o : Opts} {c : Cls} {ns : Str} {nss : NsMap} {as : List (Str × Val Cls F)} {e : Xml}
    (ht : typed fastkml P (.obj c ns nss as) = true) (hs : AllSchematic o (.obj c ns nss as))
    (hv : AllValued o (.obj c ns nss as))
    (htr : truthy fastkml (.obj c ns nss as) = .ok true) (he : ser fastkml o (.obj c ns nss as) = .ok e) :
    ∃ t, elemType c = some t ∧ e.tag = tagOf (elemName c) ∧ Valid lexOk t e := by
  have h := hs c ns nss as .self
  cases hty : elemType c with
  | none => exact absurd hty h.declared
  | some t =>
    refine ⟨t, rfl, ?_, (tree_valid _ c ns nss as e rfl ht hs
      (fun c ns nss as hin T hT => serves_lexOk P (hv c ns nss as hin) hT) htr he).1 t hty⟩
    rw [(written ht he).tag, h.ns]; rfl

/-! ## C45: names -/

/-- **C45.** Every child and every XML attribute that is written for an object has a name
that the schemas declare for the type of the element, in whatever order. -/
theorem C45_names {P : Pt F → Bool} {o : Opts} {c : Cls} {ns : Str} {nss : NsMap} {as : List (Str × Val Cls F)} {e : Xml}
    (ht : typed fastkml P (.obj c ns nss as) = true) (hs : AllPlaced (.obj c ns nss as)) {t : QN} (hty : elemType c = some t)
    (he : ser fastkml o (.obj c ns nss as) = .ok e) :
    (∀ k ∈ e.kids, ∃ p ∈ partsOf 8 t, ∃ q ∈ p.elems, k.tag = tagOf q.1) ∧
    (∀ p ∈ e.attrs, ∃ a ∈ typeAttrs 8 t, a.name = p.1) := by
  have h : Placed c ns nss as := hs c ns nss as .self
  have W := written ht he
  have hns : ns ≠ [] := by rw [h.ns]; cases xnsOf c <;> simp [uri]
  have hok := fastkml_namesValid c hty
  simp only [namesValid, List.all_eq_true, Bool.and_eq_true, Bool.or_eq_true, List.any_eq_true, QN.same_iff, decide_eq_true_eq,
    sameStr_iff] at hok
  constructor
  · intro k hk
    obtain ⟨blocks, hb, hkk⟩ := W.kids
    rw [hkk] at hk
    obtain ⟨ks, hks, hk⟩ := List.mem_flatten.mp hk
    obtain ⟨it, hit, hb⟩ := hb.mem_right hks
    have hname : ∃ q ∈ kidNames c it, k.tag = tagOf q := by
      have hkind : kindOk P it (attr it.attr as) = true := (typed_obj.mp ht).1 it hit
      have Wi := (fastkml_writeOk c).item it hit
      have hst : place it.get ≠ .children → value fastkml c as it.attr = attr it.attr as :=
        fun h => (getattr_stored Wi h o as).2
      have hobj : ∀ w x, (∃ d ns' nss' bs, w = .obj d ns' nss' bs ∧ .cls d ∈ it.classes) → typed fastkml P w = true →
          AllPlaced w → ser fastkml o w = .ok x → ∃ q ∈ (clsList it).map elemName, x.tag = tagOf q := by
        rintro _ x ⟨d, ns', nss', bs, rfl, hd⟩ htw hpw hx
        refine ⟨elemName d, List.mem_map.mpr ⟨d, clsList_mem.mpr hd, rfl⟩, ?_⟩
        rw [(written htw hx).tag, (hpw d ns' nss' bs .self).ns]; rfl
      simp only [kidNames]
      cases hp : place it.get with
      | text => simp only [Block, hp] at hb; subst hb; cases hk
      | attr => simp only [Block, hp] at hb; subst hb; cases hk
      | child =>
        simp only [Block, hp] at hb
        rw [hst (by rw [hp]; simp)] at hb
        have hsc : scalar it.get = true := by simp only [scalar, hp]
        have hksh := kindOk_shown hsc Wi.dflt hkind o.verbosity
        simp only [scalarKid] at hb
        split at hb
        · subst hb; cases hk
        · rename_i s htx
          subst hb
          rw [List.mem_singleton] at hk
          subst hk
          exact ⟨_, (names_child (c := c) hp hksh htx).1, by simp only [Xml.leaf, Xml.tag]; exact childNs_uri h _ _⟩
      | children =>
        simp only [Block, hp] at hb
        by_cases hd : it.get = .subDtList
        · have hw := Wi.whens.mp hd
          have hc : c = .Track := by
            have key : ∀ c ∈ Cls.all, (fastkml.info c).special = .track → c = .Track := by decide +kernel
            exact key c (Cls.mem_all c) hw.1
          have hval : value fastkml c as it.attr = .whens ((rows as).map (·.when_)) := by
            simp only [value, hw, and_self, if_true]
          rw [hval] at hb
          simp only [listKids, List.map_map] at hb
          rw [hb] at hk
          obtain ⟨r, hr, rfl⟩ := List.mem_map.mp hk
          have := h.whens hc r hr
          refine ⟨.q .kml it.node, by simp [namesOf, hd], ?_⟩
          cases hwn : r.when_ with
          | none => exact absurd hwn this
          | some k => simp only [Function.comp, hwn, Xml.leaf, Xml.tag, tagOf, h.kml]
        · have hg : it.get = .coordsList := by
            cases hg : it.get <;> simp [hg, place] at hp hd ⊢
          refine ⟨.q (xnsOf c) it.node, by simp [namesOf, hg], ?_⟩
          have hw := Wi.coords.mp hg
          have hval : ∃ l, value fastkml c as it.attr = .coords l := by
            rcases hw.2 with h | h
            · exact ⟨_, by simp only [value, hw.1, h]; rfl⟩
            · exact ⟨_, by simp only [value, hw.1, h]; rfl⟩
          obtain ⟨l, hval⟩ := hval
          rw [hval] at hb
          simp only [listKids] at hb
          rw [hb] at hk
          obtain ⟨r, hr, rfl⟩ := List.mem_map.mp hk
          simp only [Xml.leaf, Xml.tag, tagOf, ← h.ns]
      | object =>
        simp only [Block, hp] at hb
        rw [hst (by rw [hp]; simp)] at hb
        rcases hb with ⟨_, rfl⟩ | ⟨x, h1, h2, rfl⟩
        · cases hk
        · rw [List.mem_singleton] at hk
          subst hk
          have hg : it.get = .xmlSub := by cases hg : it.get <;> simp [hg, place] at hp; rfl
          simp only [kindOk, hg] at hkind
          cases hv : attr it.attr as with
          | obj d ns' nss' bs =>
            rw [hv] at hkind h2
            have hm : (it.attr, .obj d ns' nss' bs) ∈ as := attrOf_mem (attrs := as) hv (by simp)
            exact hobj _ k ⟨d, ns', nss', bs, rfl, by simpa [isInst] using hkind⟩ ((typed_obj.mp ht).2.2.1 _ _ hm)
              (everywhere_attr hs hm) h2
          | none => rw [hv] at h2; simp [ser] at h2
          | _ => rw [hv] at hkind; simp [isInst] at hkind
      | objects =>
        simp only [Block, hp] at hb
        rw [hst (by rw [hp]; simp)] at hb
        obtain ⟨l, hv, _, hall⟩ := hb
        have hv : attr it.attr as = .list l := hv
        have hg : it.get = .xmlSubList := by cases hg : it.get <;> simp [hg, place] at hp; rfl
        simp only [kindOk, hg, hv, List.all_eq_true] at hkind
        obtain ⟨w, hw, hx⟩ := hall.mem_right hk
        have hw := (List.mem_filter.mp hw).1
        have hm : (it.attr, .list l) ∈ as := attrOf_mem (attrs := as) hv (by simp)
        exact hobj w k (isInst_obj (hkind w hw)) ((typed_obj.mp ht).2.2.2 _ _ hm w hw)
          (everywhere_member (everywhere_attr hs hm) hw) hx
    obtain ⟨q, hq, htag⟩ := hname
    obtain ⟨p, hp, x, hx, rfl⟩ := (hok it hit).1 q hq
    exact ⟨p, hp, x, hx, htag⟩
  · intro p hp
    rcases W.noAttr p hp with ⟨it, hit, hpl, hn⟩ | hh
    · rcases (hok it hit).2 with h | ⟨a, ha, hna⟩
      · exact absurd hpl h
      · exact ⟨a, ha, hna.trans hn.symm⟩
    · exact absurd hh.2.1 hns

/-! ## Examples -/

/-- `Placed`, computed. -/
def placedB (c : Cls) (ns : Str) (nss : NsMap) (as : List (Str × Val Cls F)) : Bool :=
  decide (ns = uri (xnsOf c)) && decide (nsGet nss (s% "kml") = uri .kml) && decide (nsGet nss (s% "gx") = uri .gx) &&
  (decide (c ≠ .Track) || (rows as).all fun r => r.when_.isSome)

theorem placedB_sound {c : Cls} {ns : Str} {nss : NsMap} {as : List (Str × Val Cls F)} (h : placedB c ns nss as = true) :
    Placed c ns nss as := by
  simp only [placedB, Bool.and_eq_true, decide_eq_true_eq, Bool.or_eq_true, List.all_eq_true] at h
  obtain ⟨⟨⟨h1, h2⟩, h3⟩, h4⟩ := h
  refine ⟨h1, h2, h3, fun hc r hr hn => ?_⟩
  rcases h4 with h | h
  · exact h hc
  · have := h r hr; rw [hn] at this; cases this

/-- `InOrder`, computed. -/
def inOrderB (c : Cls) (as : List (Str × Val Cls F)) : Bool :=
  match c with
  | .Style => List.isSublist ((members (s% "styles") as).filterMap classOf)
      [.IconStyle, .LabelStyle, .LineStyle, .PolyStyle, .BalloonStyle]
  | .ExtendedData =>
    ((members (s% "elements") as).dropWhile fun w => decide (classOf w = some .Data)).all fun w => decide (classOf w = some .SchemaData)
  | .Document => (members (s% "features") as).isEmpty || (members (s% "schemata") as).isEmpty
  | .KML =>
    decide (((members (s% "features") as).takeWhile fun w => decide (classOf w = some .NetworkLinkControl)).length ≤ 1) &&
    decide (((members (s% "features") as).dropWhile fun w => decide (classOf w = some .NetworkLinkControl)).length ≤ 1)
  | _ => true

theorem mem_takeWhile {α : Type} {p : α → Bool} {l : List α} {a : α} (h : a ∈ l.takeWhile p) : p a = true := by
  induction l with
  | nil => cases h
  | cons b l ih =>
    rw [List.takeWhile_cons] at h
    split at h
    · rcases List.mem_cons.mp h with rfl | h
      · assumption
      · exact ih h
    · cases h

theorem inOrderB_sound {c : Cls} {as : List (Str × Val Cls F)} (h : inOrderB c as = true) : InOrder c as := by
  cases c
  case Style => exact List.isSublist_iff_sublist.mp h
  case ExtendedData =>
    simp only [inOrderB, List.all_eq_true, decide_eq_true_eq] at h
    exact ⟨_, _, (List.takeWhile_append_dropWhile).symm, fun w hw => by simpa using mem_takeWhile hw, h⟩
  case Document => simpa [inOrderB, InOrder] using h
  case KML =>
    simp only [inOrderB, Bool.and_eq_true, decide_eq_true_eq] at h
    refine ⟨_, _, (List.takeWhile_append_dropWhile).symm, h.1, h.2, fun w hw => by simpa using mem_takeWhile hw, fun w hw => ?_⟩
    generalize hl : List.dropWhile (fun w => decide (classOf w = some Cls.NetworkLinkControl)) (members (s% "features") as) = l at *
    match l with
    | [] => cases hw
    | [x] =>
      rw [List.mem_singleton] at hw
      subst hw
      have := List.head?_dropWhile_not (fun w => decide (classOf w = some Cls.NetworkLinkControl)) (members (s% "features") as)
      rw [hl] at this
      simpa using this
    | _ :: _ :: _ => exact absurd h.2 (by simp)
  all_goals exact trivial

/-- `Schematic`, computed. -/
def schematicB [DecidableEq F] (o : Opts) (c : Cls) (ns : Str) (nss : NsMap) (as : List (Str × Val Cls F)) : Bool :=
  placedB c ns nss as && (elemType c).isSome && inOrderB c as &&
  (decide (c ≠ .IconStyle) || match attr (s% "icon") as with
    | .obj _ _ _ bs => decide (o.verbosity ≠ .verbose) && linkExtras.all fun a => decide (attr a bs = .none)
    | _ => true)

theorem schematicB_sound [DecidableEq F] {o : Opts} {c : Cls} {ns : Str} {nss : NsMap} {as : List (Str × Val Cls F)}
    (h : schematicB o c ns nss as = true) : Schematic o c ns nss as := by
  simp only [schematicB, Bool.and_eq_true, Bool.or_eq_true, decide_eq_true_eq] at h
  obtain ⟨⟨⟨h1, h2⟩, h3⟩, h4⟩ := h
  refine ⟨placedB_sound h1, fun hn => by (rw [hn] at h2; cases h2), inOrderB_sound h3, fun hc d ns nss bs hi => ?_⟩
  rcases h4 with h | h
  · exact absurd hc h
  · rw [hi] at h
    simp only [Bool.and_eq_true, decide_eq_true_eq, List.all_eq_true] at h
    exact h

/-- A KML file with a document that has a style and two placemarks. -/
def validKml : Val Cls Fix := newObj .KML [(s% "features", .list [newObj .Document [
  (s% "id", .str (s% "d")), (s% "name", .str (s% "n")), (s% "visibility", .bool false),
  (s% "style_url", newObj .StyleUrl [(s% "url", .str (s% "#s"))]),
  (s% "atom_author", newObj .Author [(s% "name", .str (s% "a")), (s% "email", .str (s% "b@c.d"))]),
  (s% "styles", .list [newObj .Style [(s% "id", .str (s% "s")), (s% "styles", .list [
    newObj .IconStyle [(s% "icon", newObj .Icon [(s% "href", .str (s% "i.png"))])],
    newObj .LineStyle [(s% "width", .float (fx 2500000)), (s% "color", .str (s% "ff00ff00"))]])]]),
  (s% "features", .list [
    newObj .Folder [(s% "features", .list [sampleMark (s% "a") [[fx 1, fx 2], [fx 3, fx (-4)]]])],
    sampleMark (s% "b") [[fx 1, fx 2, fx 7], [fx 3, fx (-4), fx 8]]])]])]

example : typed fastkml dim23 validKml = true ∧ truthy fastkml validKml = .ok true := by decide +kernel
example : everywhereB (schematicB ⟨none, .normal⟩) validKml = true := by decide +kernel
example : (match ser fastkml ⟨none, .normal⟩ validKml with
    | .ok e => decide (e.kids.length = 1)
    | .error _ => false) = true := by decide +kernel

/-! ## What is not valid

`orderB` is necessary for validity, so that invalid output can be recognised by
evaluation. -/

/-- `Accepts`, by tags, computed. -/
def acceptsB : List Part → List Str → Bool
  | [], ts => ts.isEmpty
  | p :: ps, ts => (List.range (ts.length + 1)).any fun k =>
      ((ts.take k).all fun t => p.elems.any fun x => decide (t = tagOf x.1)) && decide (p.min ≤ k) &&
        (p.unb || decide (k ≤ 1)) && acceptsB ps (ts.drop k)

theorem acceptsB_of {ps : List Part} {qs : List Typed} (h : Accepts ps qs) :
    acceptsB ps (qs.map fun q => tagOf q.1) = true := by
  induction h with
  | nil => rfl
  | @cons p ps ts us hin hmin hmax _ ih =>
    simp only [acceptsB, List.any_eq_true, List.mem_range]
    refine ⟨ts.length, by simp; omega, ?_⟩
    simp only [List.map_append, Bool.and_eq_true, List.all_eq_true, decide_eq_true_eq, Bool.or_eq_true, List.any_eq_true]
    refine ⟨⟨⟨fun t ht => ?_, hmin⟩, hmax⟩, ?_⟩
    · rw [List.take_left' (by simp)] at ht
      obtain ⟨q, hq, rfl⟩ := List.mem_map.mp ht
      exact ⟨q, hin q hq, rfl⟩
    · rw [List.drop_left' (by simp)]; exact ih

theorem validAll_tags {qs : List Typed} {ks : List Xml} (h : ValidAll ok qs ks) :
    ks.map Xml.tag = qs.map fun q => tagOf q.1 := by
  induction qs generalizing ks with
  | nil => cases h; rfl
  | cons q qs ih =>
    cases h with
    | cons hn _ h => simp [hn, ih h]

theorem valid_order {t : QN} {e : Xml} (h : Valid ok t e) (hd : typeDecl t ≠ none) :
    acceptsB (partsOf 8 t) (e.kids.map Xml.tag) = true := by
  cases h with
  | simple hs _ _ _ => exact absurd hs hd
  | complex _ _ _ _ hq hk => rw [validAll_tags hk]; exact acceptsB_of hq

/-- The children of the written element are not in an order that the schema accepts. -/
def disordered (c : Cls) (o : Opts) (v : Val Cls Fix) : Bool :=
  match elemType c, ser fastkml o v with
  | some t, .ok e => (typeDecl t).isSome && !acceptsB (partsOf 8 t) (e.kids.map Xml.tag)
  | _, _ => false

theorem disordered_sound {c : Cls} {o : Opts} {v : Val Cls Fix} (h : disordered c o v = true) :
    ∃ t e, elemType c = some t ∧ ser fastkml o v = .ok e ∧ ¬ Valid ok t e := by
  simp only [disordered] at h
  split at h
  · rename_i t e ht he
    rw [Bool.and_eq_true] at h
    refine ⟨t, e, ht, he, fun hv => ?_⟩
    have := valid_order hv (by intro hn; rw [hn] at h; simp at h)
    rw [this] at h
    simp at h
  · cases h

set_option maxRecDepth 10000 in
/-- **C44, excluded case.** A document with both a feature and a schema: the schema is
written after the feature. -/
theorem C44_document : ∃ t e, elemType .Document = some t ∧
    ser fastkml ⟨none, .normal⟩ (newObj .Document [(s% "schemata", .list [newObj .Schema [(s% "id", .str (s% "s"))]]),
      (s% "features", .list [newObj .Placemark []])]) = .ok e ∧ ¬ Valid ok t e :=
  disordered_sound (by decide +kernel)

/-- A file with a control element and a folder. -/
def controlledKml : Val Cls Fix :=
  newObj .KML [(s% "features", .list [newObj .NetworkLinkControl [], newObj .Folder []])]

set_option maxRecDepth 10000 in
/-- **C44, excluded case.** A valid file with a control element and a feature: when it is
read, the features come first, and when it is written again it is not valid. -/
theorem C44_control : everywhereB (schematicB ⟨none, .normal⟩) controlledKml = true ∧ ∃ v t e, writeRead controlledKml = .ok v ∧
    elemType .KML = some t ∧ ser fastkml ⟨none, .normal⟩ v = .ok e ∧ ¬ Valid ok t e := by
  refine ⟨by decide +kernel, newObj .KML [(s% "features", .list [newObj .Folder [], newObj .NetworkLinkControl []])], ?_⟩
  obtain ⟨t, e, h1, h2, h3⟩ := disordered_sound (c := .KML) (o := ⟨none, .normal⟩)
    (v := newObj .KML [(s% "features", .list [newObj .Folder [], newObj .NetworkLinkControl []])]) (by decide +kernel)
  exact ⟨t, e, by decide +kernel, h1, h2, h3⟩

set_option maxRecDepth 10000 in
/-- **C44, excluded case.** Styles in another order. -/
theorem C44_styles : ∃ t e, elemType .Style = some t ∧
    ser fastkml ⟨none, .normal⟩ (newObj .Style [(s% "styles", .list [newObj .PolyStyle [(s% "fill", .bool true)],
      newObj .LineStyle [(s% "width", .int 2)]])]) = .ok e ∧ ¬ Valid ok t e :=
  disordered_sound (by decide +kernel)

set_option maxRecDepth 10000 in
/-- **C44, excluded case.** Verbose output writes the defaults of a link in the icon of an
icon style, where the schema allows only a target. -/
theorem C44_verbose_icon : ∃ e, ser fastkml ⟨none, .verbose⟩ (newObj .Icon [(s% "href", .str (s% "i"))]) = .ok e ∧
    ¬ Valid ok basicLink e := by
  cases he : ser fastkml ⟨none, .verbose⟩ (newObj .Icon [(s% "href", .str (s% "i"))]) with
  | error x =>
    have : (match ser fastkml ⟨none, .verbose⟩ (newObj .Icon [(s% "href", .str (s% "i"))]) with
      | .ok _ => true | .error _ => false) = true := by decide +kernel
    rw [he] at this; cases this
  | ok e =>
    refine ⟨e, rfl, fun hv => ?_⟩
    have h1 := valid_order hv (by
      have : (typeDecl basicLink).isSome = true := by decide +kernel
      intro hn; rw [hn] at this; cases this)
    have h2 : (match ser fastkml ⟨none, .verbose⟩ (newObj .Icon [(s% "href", .str (s% "i"))]) with
      | .ok e => acceptsB (partsOf 8 basicLink) (e.kids.map Xml.tag) | .error _ => true) = false := by decide +kernel
    rw [he] at h2
    simp only at h2
    rw [h1] at h2; cases h2

set_option maxRecDepth 10000 in
/-- **C45, excluded case.** The time of a row of a track that has none is written as an
element `when` in the namespace of the extension, which does not have one. -/
theorem C45_no_time : (match ser fastkml ⟨none, .normal⟩ (newObj .Track [(s% "track_items", .items [⟨none, [fx 1, fx 2], none⟩])]) with
    | .ok e => e.kids.any fun k => decide (k.tag = tagOf (.q .gx (s% "when"))) &&
        (match elemType .Track with
          | some t => (partsOf 8 t).all fun p => p.elems.all fun q => decide (k.tag ≠ tagOf q.1)
          | none => false)
    | .error _ => false) = true := by decide +kernel

end Verif
