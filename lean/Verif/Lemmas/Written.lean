import Verif.Lemmas.Write
import Verif.Lemmas.ReadTyped
import Verif.Spec.Writing

/-!
# What is written for a typed object
-/

set_option linter.unusedSectionVars false
set_option linter.unusedSimpArgs false

namespace Verif

open Spec

variable {C F : Type} [DecidableEq C] [PyExt F]

/-! ## Conditions on a class -/

/-- The writer that belongs to a reader. -/
def setOf : GetFn → SetFn
  | .nodeText => .nodeText
  | .subText => .subText
  | .attrText => .attrText
  | .subBool => .subBool
  | .subInt => .subInt
  | .attrInt => .attrInt
  | .subFloat => .subFloat
  | .attrFloat => .attrFloat
  | .subEnum => .subEnum
  | .attrEnum => .attrEnum
  | .subDt => .subDt
  | .subDtList => .subDtList
  | .coordsList => .coordsList
  | .coordinates => .coordinates
  | .xmlSub => .xmlSub
  | .xmlSubList => .xmlSubList

/-- The default has the type of the attribute. -/
def dfltOk (it : Item C) : Bool :=
  match it.dflt with
  | .none => true
  | .str _ => decide (it.get = .nodeText ∨ it.get = .subText ∨ it.get = .attrText)
  | .bool _ => decide (it.get = .subBool)
  | .int _ => decide (it.get = .subInt ∨ it.get = .attrInt ∨ it.get = .subFloat ∨ it.get = .attrFloat)
  | .enum e x => decide (it.get = .subEnum ∨ it.get = .attrEnum) && decide (it.classes = [.enum e]) &&
      decide (x ∈ e.values)
  | .float _ _ => decide (it.get = .subFloat ∨ it.get = .attrFloat)
  | .floats _ => decide (it.get = .coordsList)

/-- What writing needs of an item of a class. -/
def itemWriteOk (L : Lib C) (c : C) (it : Item C) : Bool :=
  decide (it.set = setOf it.get) && dfltOk it &&
  decide (it.get = .subDtList ↔ (L.info c).special = .track ∧ it.attr = s% "whens") &&
  decide (it.get = .coordsList ↔ (L.info c).special = .track ∧ (it.attr = s% "coords" ∨ it.attr = s% "angles"))

/-- At most one item writes the text of the element. -/
def oneText (l : List (Item C)) : Bool := decide ((l.filter fun it => decide (place it.get = .text)).length ≤ 1)

/-- No two items write the same XML attribute. -/
def attrNodes (l : List (Item C)) : List Str := (l.filter fun it => decide (place it.get = .attr)).map (·.node)

/-- What writing needs of a class. -/
def writeOk (L : Lib C) (c : C) : Bool :=
  ((L.itemsOf c).all fun it => itemWriteOk L c it) && oneText (L.itemsOf c) &&
  decide (attrNodes (L.itemsOf c)).Nodup &&
  (decide ((L.info c).special ≠ .kml) ||
    decide ((L.itemsOf c).map (fun it => (it.attr, it.get)) = [(s% "features", .xmlSubList)]))

structure ItemWriteOk (L : Lib C) (c : C) (it : Item C) : Prop where
  set : it.set = setOf it.get
  dflt : dfltOk it = true
  whens : it.get = .subDtList ↔ (L.info c).special = .track ∧ it.attr = s% "whens"
  coords : it.get = .coordsList ↔ (L.info c).special = .track ∧ (it.attr = s% "coords" ∨ it.attr = s% "angles")

structure WriteOk (L : Lib C) (c : C) : Prop where
  item : ∀ it ∈ L.itemsOf c, ItemWriteOk L c it
  text : oneText (L.itemsOf c) = true
  attrs : (attrNodes (L.itemsOf c)).Nodup
  kml : (L.info c).special = .kml →
    (L.itemsOf c).map (fun it => (it.attr, it.get)) = [(s% "features", .xmlSubList)]

theorem writeOk_iff {L : Lib C} {c : C} (h : writeOk L c = true) : WriteOk L c := by
  simp only [writeOk, itemWriteOk, Bool.and_eq_true, Bool.or_eq_true, List.all_eq_true, decide_eq_true_eq] at h
  obtain ⟨⟨⟨h1, h2⟩, h3⟩, h4⟩ := h
  refine ⟨fun it hit => ?_, h2, h3, fun hk => ?_⟩
  · obtain ⟨⟨⟨a, b⟩, d⟩, e⟩ := h1 it hit
    exact ⟨a, b, d, e⟩
  · rcases h4 with h4 | h4
    · exact absurd hk h4
    · exact h4

/-! ## Values -/

theorem value_eq (L : Lib C) (c : C) (attrs : List (Str × Val C F)) (a : Str) :
    value L c attrs a = propOf (L.info c).special attrs a := by
  unfold value propOf
  have hr : rows attrs = itemsOf' attrs := by unfold rows itemsOf'; rfl
  rw [hr]
  have h1 : trackCoords (itemsOf' attrs) =
      ((itemsOf' attrs).map (·.coord)).filter fun p => !ptEmpty p := by
    unfold trackCoords; rw [List.filter_map]; rfl
  have h2 : trackAngles (itemsOf' attrs) =
      ((itemsOf' attrs).filterMap (·.angle)).map fun a => [a.1, a.2.1, a.2.2] := by
    unfold trackAngles; rw [List.map_filterMap]
  rw [h1, h2]
  rfl

theorem eqDflt_scalarEq {P : Pt F → Bool} {it : Item C} (hs : scalar it.get = true) (hd : dfltOk it = true) {v : Val C F}
    (hv : kindOk P it v = true) : eqDflt v it.dflt = scalarEq v it.dflt.val := by
  cases hg : it.get <;> simp only [hg, scalar, place, decide_eq_true_eq, reduceCtorEq, Bool.false_eq_true] at hs <;>
    simp only [kindOk, hg] at hv <;>
    cases v <;> simp only [Bool.false_eq_true] at hv <;>
    cases hdf : it.dflt <;> simp [dfltOk, hdf, hg] at hd <;>
    simp [eqDflt, scalarEq, number, Dflt.val]
  all_goals (rename_i a b; cases a <;> cases b <;> rfl)

theorem isNone_iff (v : Val C F) : isNone v = !v.notNone := by cases v <;> rfl

theorem getValue_shown {P : Pt F → Bool} {it : Item C} (hs : scalar it.get = true) (hd : dfltOk it = true)
    {v : Val C F} (hv : kindOk P it v = true) (vb : Verbosity) :
    getValue v vb it.dflt = shown vb it.dflt.val v := by
  unfold getValue shown
  rw [eqDflt_scalarEq hs hd hv, isNone_iff]
  cases vb with
  | normal => simp
  | terse => simp
  | verbose =>
    cases hn : v.notNone with
    | true => simp
    | false =>
      have : v = .none := by cases v <;> simp [Val.notNone] at hn <;> rfl
      subst this
      cases it.dflt <;> simp [Dflt.val]

theorem kindOk_dflt {P : Pt F → Bool} {it : Item C} (hs : scalar it.get = true) (hd : dfltOk it = true) :
    kindOk P it (it.dflt.val : Val C F) = true := by
  cases hg : it.get <;> simp only [hg, scalar, place, decide_eq_true_eq, reduceCtorEq, Bool.false_eq_true] at hs <;>
    cases hdf : it.dflt <;> simp [dfltOk, hdf, hg] at hd <;> simp [kindOk, hg, Dflt.val, hd]

theorem kindOk_none {P : Pt F → Bool} {it : Item C} (hs : scalar it.get = true) :
    kindOk P it (.none : Val C F) = true := by
  cases hg : it.get <;> simp only [hg, scalar, place, decide_eq_true_eq, reduceCtorEq, Bool.false_eq_true] at hs <;>
    simp [kindOk, hg]

theorem kindOk_shown {P : Pt F → Bool} {it : Item C} (hs : scalar it.get = true) (hd : dfltOk it = true)
    {v : Val C F} (hv : kindOk P it v = true) (vb : Verbosity) :
    kindOk P it (shown vb it.dflt.val v) = true := by
  unfold shown
  cases vb with
  | normal => exact hv
  | terse => simp only; split; exact kindOk_none hs; exact hv
  | verbose => simp only; split; exact kindOk_dflt hs hd; exact hv

theorem getValue_other {v : Val C F} {vb : Verbosity} {d : Dflt} (hn : v.notNone = true) (he : eqDflt v d = false) :
    getValue v vb d = v := by simp [getValue, hn, he]

theorem childNs_eq (ns : Str) (nss : NsMap) (v : Val C F) : childNs ns nss v = getNs ns nss v := by
  cases v <;> simp only [childNs, getNs, nsIdOf]
  rename_i e x
  cases e <;> simp only [childNs, enumNsId, getNs]
  split <;> rfl

/-! ## Contributions -/

theorem elemText_nodeText {o : Opts} {it : Item C} {v : Val C F} (h : it.get = .nodeText) :
    elemText o it v = scalarText (shown o.verbosity it.dflt.val v) := by simp [elemText, h]

/-- The contribution of a scalar. -/
theorem contrib_scalar {P : Pt F → Bool} {it : Item C} (hs : scalar it.get = true) (hset : it.set = setOf it.get)
    (hd : dfltOk it = true) {sv : SView C F} (hv : kindOk P it sv.v = true) (ns : Str) (nss : NsMap) (o : Opts) :
    contrib it ns nss o sv = .ok {
      attr := (attrText o it sv.v).map fun s => (it.node, s)
      text := elemText o it sv.v
      kids := if place it.get = .child then scalarKid ns nss it.node (shown o.verbosity it.dflt.val sv.v) else [] } := by
  have hk := kindOk_shown hs hd hv o.verbosity
  unfold contrib
  rw [getValue_shown hs hd hv, hset]
  unfold attrText elemText scalarKid
  rw [childNs_eq]
  generalize shown o.verbosity it.dflt.val sv.v = v at hk
  cases hg : it.get <;> simp only [hg, scalar, place, decide_eq_true_eq, reduceCtorEq, Bool.false_eq_true] at hs <;>
    simp only [setOf, place, hg, reduceCtorEq, if_false, if_true] <;>
    simp only [kindOk, hg] at hk <;>
    cases v <;> simp only [Bool.false_eq_true] at hk <;>
    simp only [scalarText, Option.map_none, Option.map_some, textK, leafK, attrK, strText, numText, pyStr, getNs, nsIdOf,
      List.isEmpty_iff]
  all_goals first
    | rfl
    | (rename_i s; by_cases h : s = [] <;> simp [h, textK, leafK, attrK])
    | (rename_i s; cases s <;> rfl)

theorem truthy_nonEmpty {L : Lib C} {v : Val C F} {b : Bool} (h : truthy L v = .ok b) : nonEmpty L v = b := by
  simp [nonEmpty, h]

/-- The value of a registered attribute that is not a list of times or
coordinates is the stored one. -/
theorem getattr_stored {L : Lib C} {c : C} {it : Item C} (h : ItemWriteOk L c it) (hp : place it.get ≠ .children)
    (o : Opts) (attrs : List (Str × Val C F)) :
    getattr (L.info c).special (serAttrs L o attrs) it.attr = sview L o (attrOf it.attr attrs) ∧
    value L c attrs it.attr = attrOf it.attr attrs := by
  rw [getattr_serAttrs, value_eq]
  have h1 : ¬ ((L.info c).special = .track ∧ it.attr = s% "whens") := by
    intro hh; exact hp (by rw [h.whens.mpr hh]; rfl)
  have h2 : ¬ ((L.info c).special = .track ∧ (it.attr = s% "coords" ∨ it.attr = s% "angles")) := by
    intro hh; exact hp (by rw [h.coords.mpr hh]; rfl)
  have h3 : ¬ ((L.info c).special = .track ∧ (it.attr = s% "whens" ∨ it.attr = s% "coords" ∨ it.attr = s% "angles")) := by
    rintro ⟨ht, hw | hw⟩
    · exact h1 ⟨ht, hw⟩
    · exact h2 ⟨ht, hw⟩
  have h4 : propOf (L.info c).special attrs it.attr = attrOf it.attr attrs := by
    unfold propOf
    rw [if_neg h1, if_neg (fun hh => h2 ⟨hh.1, Or.inl hh.2⟩), if_neg (fun hh => h2 ⟨hh.1, Or.inr hh.2⟩)]
  rw [if_neg h3, h4]
  exact ⟨rfl, rfl⟩

/-- The contribution of an item of a typed object. -/
theorem contrib_written {L : Lib C} {P : Pt F → Bool} {c : C} {ns : Str} {nss : NsMap} {attrs : List (Str × Val C F)}
    (ht : typed L P (.obj c ns nss attrs) = true) {it : Item C} (hit : it ∈ L.itemsOf c) (hw : ItemWriteOk L c it)
    {o : Opts} {k : Contrib}
    (hk : contrib it ns nss o (getattr (L.info c).special (serAttrs L o attrs) it.attr) = .ok k) :
    k.attr = (attrText o it (value L c attrs it.attr)).map (fun s => (it.node, s)) ∧
    k.text = elemText o it (value L c attrs it.attr) ∧
    Block L o ns nss it (value L c attrs it.attr) k.kids := by
  have hkind := (typed_obj.mp ht).1 it hit
  by_cases hs : scalar it.get = true
  · have hp : place it.get ≠ .children := by
      intro h; unfold scalar at hs; rw [h] at hs; cases hs
    obtain ⟨hga, hva⟩ := getattr_stored hw hp o attrs
    rw [hva]
    rw [hga, contrib_scalar (sv := sview L o (attrOf it.attr attrs)) hs hw.set hw.dflt hkind] at hk
    cases hk
    refine ⟨rfl, rfl, ?_⟩
    unfold Block
    simp only [sview]
    cases hpl : place it.get <;> simp
    all_goals (unfold scalar at hs; rw [hpl] at hs; cases hs)
  · cases hg : it.get <;> simp only [hg, scalar, place, decide_true, not_true, reduceCtorEq] at hs
    case coordinates =>
      obtain ⟨hga, hva⟩ := getattr_stored hw (by simp [hg, place]) o attrs
      rw [hva]
      rw [hga] at hk
      simp only [kindOk, hg] at hkind
      simp only [contrib, hw.set, hg, setOf, sview] at hk
      simp only [attrText, elemText, Block, hg, place]
      cases hv : attrOf it.attr attrs <;> rw [hv] at hkind hk <;> simp only [Bool.false_eq_true] at hkind
      rename_i l
      cases l with
      | nil => simp only at hk; cases hk; exact ⟨rfl, rfl, rfl⟩
      | cons p l =>
        simp only at hk
        split at hk
        · cases hk; exact ⟨rfl, rfl, rfl⟩
        · cases hk
    case xmlSub =>
      obtain ⟨hga, hva⟩ := getattr_stored hw (by simp [hg, place]) o attrs
      rw [hva]
      rw [hga] at hk
      simp only [contrib, hw.set, hg, setOf, sview] at hk
      simp only [attrText, elemText, Block, hg, place]
      split at hk
      · cases hk
      · rename_i htr; cases hk; exact ⟨rfl, rfl, Or.inl ⟨htr, rfl⟩⟩
      · rename_i htr
        split at hk
        · cases hk
        · rename_i x hx; cases hk; exact ⟨rfl, rfl, Or.inr ⟨x, htr, hx, rfl⟩⟩
    case xmlSubList =>
      obtain ⟨hga, hva⟩ := getattr_stored hw (by simp [hg, place]) o attrs
      rw [hva]
      rw [hga] at hk
      simp only [kindOk, hg] at hkind
      simp only [contrib, hw.set, hg, setOf, sview] at hk
      simp only [attrText, elemText, Block, hg, place]
      cases hv : attrOf it.attr attrs <;> rw [hv] at hkind hk <;> simp only [Bool.false_eq_true] at hkind
      rename_i l
      simp only [serMembers_list] at hk
      split at hk
      · cases hk
      · rename_i xs hxs
        cases hk
        refine ⟨rfl, rfl, l, rfl, ?_, ?_⟩
        · intro w hw'
          obtain ⟨b, hb⟩ := (elemKids_iff hxs).1 _ (List.mem_map.mpr ⟨w, hw', rfl⟩)
          exact ⟨b, hb⟩
        · have := (elemKids_iff hxs).2
          rw [List.filter_map] at this
          have := All2.map_left.mp this
          rw [List.filter_congr (q := nonEmpty L)] at this
          · exact this
          · intro w hw'
            simp only [Function.comp, nonEmpty]
            cases truthy L w <;> rfl
    case subDtList =>
      obtain ⟨hsp, ha⟩ := hw.whens.mp hg
      have hva : value L c attrs it.attr = .whens (trackWhens (itemsOf' attrs)) := by
        rw [value_eq, propOf, if_pos ⟨hsp, ha⟩]
      rw [getattr_serAttrs, if_pos ⟨hsp, Or.inl ha⟩, ← value_eq, hva] at hk
      rw [hva]
      have he : ∀ l, eqDflt (.whens l : Val C F) it.dflt = false := by intro l; cases it.dflt <;> rfl
      simp only [contrib, hw.set, hg, setOf, SView.prop,
        getValue_other (v := (.whens (trackWhens (itemsOf' attrs)) : Val C F)) rfl (he _)] at hk
      cases hk
      simp only [attrText, elemText, Block, hg, place]
      refine ⟨by simp, by simp, ?_⟩
      simp only [listKids]
      refine List.map_congr_left fun w _ => ?_
      cases w <;> rfl
    case coordsList =>
      obtain ⟨hsp, ha⟩ := hw.coords.mp hg
      have hva : ∃ l, value L c attrs it.attr = .coords l := by
        rw [value_eq, propOf, if_neg (by rintro ⟨_, h⟩; rw [h] at ha; revert ha; decide)]
        split
        · exact ⟨_, rfl⟩
        · rename_i h
          rw [if_pos]
          · exact ⟨_, rfl⟩
          · rcases ha with ha | ha
            · exact absurd ⟨hsp, ha⟩ h
            · exact ⟨hsp, ha⟩
      obtain ⟨l, hva⟩ := hva
      rw [getattr_serAttrs, if_pos ⟨hsp, Or.inr ha⟩, ← value_eq, hva] at hk
      rw [hva]
      have he : eqDflt (.coords l : Val C F) it.dflt = false := by cases it.dflt <;> rfl
      simp only [contrib, hw.set, hg, setOf, SView.prop,
        getValue_other (v := (.coords l : Val C F)) rfl he] at hk
      cases hk
      simp only [attrText, elemText, Block, hg, place]
      exact ⟨by simp, by simp, rfl⟩

theorem All2.filterMap_eq {α β γ : Type} {R : α → β → Prop} {l : List α} {m : List β} (h : All2 R l m)
    {f : α → Option γ} {g : β → Option γ} (hfg : ∀ a b, a ∈ l → R a b → g b = f a) : m.filterMap g = l.filterMap f := by
  induction h with
  | nil => rfl
  | @cons a b l m h1 _ ih =>
    rw [List.filterMap_cons, List.filterMap_cons, hfg a b (by simp) h1, ih fun a b ha => hfg a b (by simp [ha])]

theorem filterMap_filter_none {α γ : Type} {f : α → Option γ} {p : α → Bool} {l : List α}
    (h : ∀ a ∈ l, p a = false → f a = none) : l.filterMap f = (l.filter p).filterMap f := by
  induction l with
  | nil => rfl
  | cons a l ih =>
    have ih := ih fun b hb => h b (by simp [hb])
    rw [List.filter_cons]
    cases hp : p a with
    | true => simp only [if_true, List.filterMap_cons, ih]
    | false => rw [List.filterMap_cons, h a (by simp) hp]; simpa using ih

theorem attrsOf_get {T : Item C → Option Str} {items : List (Item C)} {ks : List Contrib}
    (h : All2 (fun it k => k.attr = (T it).map (fun s => (it.node, s))) items ks)
    (hT : ∀ it ∈ items, place it.get ≠ .attr → T it = none) (hn : (attrNodes items).Nodup) :
    (∀ it ∈ items, place it.get = .attr → dget it.node (attrsOf ks) = T it) ∧
    (∀ p ∈ attrsOf ks, ∃ it ∈ items, place it.get = .attr ∧ p.1 = it.node) := by
  have h1 : ks.filterMap (·.attr) =
      (items.filter fun it => decide (place it.get = .attr)).filterMap fun it => (T it).map fun s => (it.node, s) := by
    rw [All2.filterMap_eq h (f := fun it => (T it).map fun s => (it.node, s)) (fun _ _ _ hab => hab)]
    refine filterMap_filter_none fun it hit hp => ?_
    rw [hT it hit (by simpa using hp)]; rfl
  have hsub : ∀ l : List (Item C), ((l.filterMap fun it => (T it).map fun s => (it.node, s)).map Prod.fst).Sublist
      (l.map (·.node)) := by
    intro l
    induction l with
    | nil => exact .slnil
    | cons it l ih =>
      rw [List.filterMap_cons]
      cases hT' : T it with
      | none => exact .cons _ ih
      | some s => exact .cons_cons _ ih
  have hnd : ((ks.filterMap (·.attr)).map Prod.fst).Nodup := by
    rw [h1]; exact (hsub _).nodup hn
  have hd : ∀ a, dget a (attrsOf ks) = dget a (ks.filterMap (·.attr)) := by
    intro a
    have := dget_dupdate a [] (ks.filterMap (·.attr)) hnd
    rw [show attrsOf ks = dupdate [] (ks.filterMap (·.attr)) from rfl, this]
    simp [dget]
  refine ⟨fun it hit hp => ?_, ?_⟩
  · rw [hd]
    have hmem : it ∈ items.filter fun it => decide (place it.get = .attr) := List.mem_filter.mpr ⟨hit, by simpa using hp⟩
    cases hT' : T it with
    | some s =>
      refine dget_of_mem hnd ?_
      rw [h1, List.mem_filterMap]
      exact ⟨it, hmem, by rw [hT']; rfl⟩
    | none =>
      rw [dget_eq_none, h1]
      intro hin
      rw [List.mem_map] at hin
      obtain ⟨⟨a, s⟩, hin, ha⟩ := hin
      rw [List.mem_filterMap] at hin
      obtain ⟨it', hit', he⟩ := hin
      have hinj : it' = it := by
        have : ∀ l : List (Item C), (l.map (·.node)).Nodup → it' ∈ l → it ∈ l → it'.node = it.node → it' = it := by
          intro l
          induction l with
          | nil => intro _ h; cases h
          | cons x l ih =>
            intro hn h h' he
            rw [List.map_cons, List.nodup_cons] at hn
            rcases List.mem_cons.mp h with h | h2 <;> rcases List.mem_cons.mp h' with h' | h2'
            · rw [h, h']
            · subst h; exact absurd (List.mem_map (l := l).mpr ⟨it, h2', he.symm⟩) hn.1
            · subst h'; exact absurd (List.mem_map (l := l).mpr ⟨it', h2, he⟩) hn.1
            · exact ih hn.2 h2 h2' he
        refine this _ hn hit' hmem ?_
        cases hT2 : T it' with
        | none => rw [hT2] at he; cases he
        | some s' => rw [hT2] at he; cases he; exact ha
      subst hinj
      rw [hT'] at he; cases he
  · intro p hp
    have hk : p.1 ∈ (attrsOf ks).map Prod.fst := List.mem_map.mpr ⟨p, hp, rfl⟩
    have : dget p.1 (attrsOf ks) ≠ none := fun h => (dget_eq_none.mp h) hk
    rw [hd] at this
    have hk : p.1 ∈ (ks.filterMap (·.attr)).map Prod.fst := by
      apply Classical.byContradiction
      intro h
      exact this (dget_eq_none.mpr h)
    rw [h1, List.mem_map] at hk
    obtain ⟨q, hq, hqp⟩ := hk
    rw [List.mem_filterMap] at hq
    obtain ⟨it, hit, he⟩ := hq
    rw [List.mem_filter] at hit
    refine ⟨it, hit.1, by simpa using hit.2, ?_⟩
    rw [← hqp]
    cases hT2 : T it with
    | none => rw [hT2] at he; cases he
    | some s' => rw [hT2] at he; cases he; rfl

theorem textOf_eq {T : Item C → Option Str} {items : List (Item C)} {ks : List Contrib}
    (h : All2 (fun it k => k.text = T it) items ks)
    (hT : ∀ it ∈ items, place it.get ≠ .text → T it = none) (hn : oneText items = true) :
    (∀ it ∈ items, place it.get = .text → textOf ks = T it) ∧
    ((∀ it ∈ items, place it.get ≠ .text) → textOf ks = none) := by
  have h1 : ks.filterMap (·.text) = (items.filter fun it => decide (place it.get = .text)).filterMap T := by
    rw [All2.filterMap_eq h (f := T) (fun _ _ _ hab => hab)]
    refine filterMap_filter_none fun it hit hp => ?_
    exact hT it hit (by simpa using hp)
  simp only [oneText, decide_eq_true_eq] at hn
  refine ⟨fun it hit hp => ?_, fun hall => ?_⟩
  · have hmem : it ∈ items.filter fun it => decide (place it.get = .text) := List.mem_filter.mpr ⟨hit, by simpa using hp⟩
    have : (items.filter fun it => decide (place it.get = .text)) = [it] := by
      cases hl : items.filter fun it => decide (place it.get = .text) with
      | nil => rw [hl] at hmem; cases hmem
      | cons x l =>
        rw [hl] at hn hmem
        cases l with
        | nil => rw [List.mem_singleton] at hmem; rw [hmem]
        | cons y l => simp at hn
    rw [textOf, h1, this]
    cases hT' : T it <;> simp [List.filterMap_cons, hT']
  · have : (items.filter fun it => decide (place it.get = .text)) = [] := by
      rw [List.filter_eq_nil_iff]; intro it hit; simpa using hall it hit
    rw [textOf, h1, this]; rfl

theorem attrText_none {o : Opts} {it : Item C} {v : Val C F} (h : place it.get ≠ .attr) : attrText o it v = none := by
  unfold attrText; split
  · rename_i h'; exact absurd h' h
  · rfl

theorem elemText_none {o : Opts} {it : Item C} {v : Val C F} (h : place it.get ≠ .text) : elemText o it v = none := by
  unfold elemText; cases hg : it.get <;> simp only [hg, place, not_true_eq_false, ne_eq] at h <;> rfl

theorem mem_of_map_singleton {α β : Type} {f : α → β} {l : List α} {b : β} (h : l.map f = [b]) : ∃ a, l = [a] ∧ f a = b := by
  cases l with
  | nil => cases h
  | cons a l =>
    cases l with
    | nil => simp at h; exact ⟨a, rfl, h⟩
    | cons x l => simp at h

/-- What is written for a typed object. -/
theorem ser_written {L : Lib C} {P : Pt F → Bool} {c : C} (hw : WriteOk L c) {ns : Str} {nss : NsMap}
    {attrs : List (Str × Val C F)} (ht : typed L P (.obj c ns nss attrs) = true) {o : Opts} {e : Xml}
    (h : ser L o (.obj c ns nss attrs) = .ok e) : Written L o c ns nss attrs e := by
  by_cases hk : (L.info c).special = .kml
  · obtain ⟨it, hitems, hia⟩ := mem_of_map_singleton (hw.kml hk)
    simp only [Prod.mk.injEq] at hia
    obtain ⟨ha, hg⟩ := hia
    have hit : it ∈ L.itemsOf c := by rw [hitems]; simp
    have hio := hw.item it hit
    rw [ser_obj] at h
    simp only [serStep, hk, if_true] at h
    obtain ⟨hga, hva⟩ := getattr_stored hio (by simp [hg, place]) o attrs
    have hlist : ∀ root, setXmlSubList (getattr .kml (serAttrs L o attrs) (s% "features")) root = .ok e →
        ∃ xs, Block L o ns nss it (value L c attrs it.attr) xs ∧ e = Contrib.apply { kids := xs } root := by
      intro root hr
      have := setElement_eq it ns nss o (getattr (L.info c).special (serAttrs L o attrs) it.attr) root
      rw [setElement, hio.set, hg] at this
      simp only [setOf] at this
      rw [hk, ha, hr] at this
      split at this
      · cases this
      · rename_i k hkk
        cases this
        rw [← ha, ← hk] at hkk
        obtain ⟨h1, h2, h3⟩ := contrib_written ht hit hio hkk
        refine ⟨k.kids, h3, ?_⟩
        rw [attrText_none (by simp [hg, place])] at h1
        rw [elemText_none (by simp [hg, place])] at h2
        simp only [Contrib.apply, h1, h2]; rfl
    obtain ⟨xs, hb, he⟩ := hlist _ h
    have hb' : ∃ blocks, All2 (fun it ks => Block L o ns nss it (value L c attrs it.attr) ks) (L.itemsOf c) blocks ∧
        xs = blocks.flatten := by
      rw [hitems]; exact ⟨[xs], .cons hb .nil, by simp⟩
    obtain ⟨blocks, hb1, hb2⟩ := hb'
    refine ⟨?_, ⟨blocks, hb1, ?_⟩, ?_, ?_, ?_, ?_⟩
    · rw [he]; by_cases hns : ns = [] <;> simp [hns, Contrib.apply, Xml.tag, Xml.setAttr, Xml.new]
    · rw [he]; by_cases hns : ns = [] <;> simp [hns, Contrib.apply, Xml.kids, Xml.setAttr, Xml.new, hb2]
    · intro it' hit' hp
      rw [hitems, List.mem_singleton] at hit'
      subst hit'; rw [hg] at hp; cases hp
    · intro p hp
      refine Or.inr ⟨hk, ?_⟩
      rw [he] at hp
      by_cases hns : ns = []
      · simp [hns, Contrib.apply, Xml.attrs, Xml.setAttr, Xml.new, dset] at hp
        exact ⟨hns, by rw [hp]⟩
      · simp [hns, Contrib.apply, Xml.attrs, Xml.setAttr, Xml.new] at hp
    · intro it' hit' hp
      rw [hitems, List.mem_singleton] at hit'
      subst hit'; rw [hg] at hp; cases hp
    · intro _
      rw [he]; by_cases hns : ns = [] <;> simp [hns, Contrib.apply, Xml.text, Xml.setAttr, Xml.new]
  · obtain ⟨ks, hks, rfl⟩ := (ser_iff hk).mp h
    have hall := hks.imp (S := fun it k => k.attr = (attrText o it (value L c attrs it.attr)).map (fun s => (it.node, s)) ∧
      k.text = elemText o it (value L c attrs it.attr) ∧
      Block L o ns nss it (value L c attrs it.attr) k.kids)
      (fun it hit k _ hk => contrib_written ht hit (hw.item it hit) hk)
    obtain ⟨ha1, ha2⟩ := attrsOf_get (T := fun it => attrText o it (value L c attrs it.attr))
      (hall.imp fun it _ k _ hk => hk.1) (fun it _ hp => attrText_none hp) hw.attrs
    obtain ⟨ht1, ht2⟩ := textOf_eq (T := fun it => elemText o it (value L c attrs it.attr))
      (hall.imp fun it _ k _ hk => hk.2.1) (fun it _ hp => elemText_none hp) hw.text
    refine ⟨rfl, ⟨ks.map (·.kids), ?_, ?_⟩, ?_, ?_, ht1, ht2⟩
    · exact All2.map_right.mpr (hall.imp fun it _ k _ hk => hk.2.2)
    · simp [Xml.kids, List.flatMap_def]
    · exact ha1
    · intro p hp; exact Or.inl (ha2 p hp)

/-! ## Errors -/

/-- The exceptions of writing a typed object. -/
theorem ser_error {L : Lib C} (hL : ∀ c, boolOk L c = true) (hW : ∀ c, WriteOk L c) {P : Pt F → Bool} {o : Opts}
    (v : Val C F) : typed L P v = true → (∃ c ns nss attrs, v = .obj c ns nss attrs) → ∀ x, ser L o v = .error x →
    (x = .typeError ∧ TypeErr P) ∨ (x = .writeError ∧ ∃ p, P p = true ∧ p.length ≠ 2 ∧ p.length ≠ 3) := by
  induction v using Val.objInd with
  | hother v hv => rintro _ ⟨c, ns, nss, attrs, h⟩; exact absurd h (hv _ _ _ _)
  | hobj c ns nss attrs ih ihl =>
    intro ht _ x hx
    have hW := hW c
    have key : ∃ it ∈ L.itemsOf c, contrib it ns nss o (getattr (L.info c).special (serAttrs L o attrs) it.attr) = .error x := by
      rw [ser_obj] at hx
      by_cases hk : (L.info c).special = .kml
      · obtain ⟨it, hitems, hia⟩ := mem_of_map_singleton (hW.kml hk)
        simp only [Prod.mk.injEq] at hia
        obtain ⟨ha, hg⟩ := hia
        have hit : it ∈ L.itemsOf c := by rw [hitems]; simp
        refine ⟨it, hit, ?_⟩
        simp only [serStep, hk, if_true] at hx
        generalize (if ns = [] then (Xml.new (ns ++ (L.info c).tag)).setAttr (s% "xmlns") kmlUri
          else Xml.new (ns ++ (L.info c).tag)) = root at hx
        have := setElement_eq it ns nss o (getattr (L.info c).special (serAttrs L o attrs) it.attr) root
        rw [setElement, (hW.item it hit).set, hg] at this
        simp only [setOf] at this
        rw [hk, ha, hx] at this
        split at this
        · rename_i e he; rw [hk, ha]; rw [he]; cases this; rfl
        · cases this
      · simp only [serStep, hk, if_false] at hx
        exact setAll_error hx
    obtain ⟨it, hit, hc⟩ := key
    have hw := hW.item it hit
    have hkind := (typed_obj.mp ht).1 it hit
    by_cases hs : scalar it.get = true
    · have hp : place it.get ≠ .children := by
        intro h; unfold scalar at hs; rw [h] at hs; cases hs
      rw [(getattr_stored hw hp o attrs).1,
        contrib_scalar (sv := sview L o (attrOf it.attr attrs)) hs hw.set hw.dflt hkind] at hc
      cases hc
    · cases hg : it.get <;> simp only [hg, scalar, place, decide_true, not_true, reduceCtorEq] at hs
      case coordinates =>
        rw [(getattr_stored hw (by simp [hg, place]) o attrs).1] at hc
        simp only [kindOk, hg] at hkind
        simp only [contrib, hw.set, hg, setOf, sview] at hc
        cases hv : attrOf it.attr attrs <;> rw [hv] at hkind hc <;> simp only [Bool.false_eq_true] at hkind
        rename_i l
        cases l with
        | nil => cases hc
        | cons p l =>
          simp only at hc
          split at hc
          · cases hc
          · rename_i hd
            cases hc
            simp only [List.all_cons, Bool.and_eq_true] at hkind
            exact Or.inr ⟨rfl, p, hkind.1, fun h => hd (Or.inl h), fun h => hd (Or.inr h)⟩
      case xmlSub =>
        rw [(getattr_stored hw (by simp [hg, place]) o attrs).1] at hc
        simp only [kindOk, hg] at hkind
        simp only [contrib, hw.set, hg, setOf, sview] at hc
        split at hc
        · rename_i e he; cases hc
          exact Or.inl (truthy_typed_error hL (typed_attrOf ht it.attr) he)
        · cases hc
        · rename_i htr
          split at hc
          · rename_i e he; cases hc
            cases hv : attrOf it.attr attrs <;> rw [hv] at hkind <;> simp only [isInst, Bool.false_eq_true] at hkind
            · rw [hv] at htr; simp [truthy, info, Info.plain] at htr
            · rename_i c' ns' nss' attrs'
              have hmem := attrOf_mem hv (by simp)
              refine ih it.attr _ hmem ?_ ⟨c', ns', nss', attrs', rfl⟩ x (by rw [← hv]; exact he)
              have := typed_attrOf ht it.attr
              rw [hv] at this; exact this
          · cases hc
      case xmlSubList =>
        rw [(getattr_stored hw (by simp [hg, place]) o attrs).1] at hc
        simp only [kindOk, hg] at hkind
        simp only [contrib, hw.set, hg, setOf, sview] at hc
        cases hv : attrOf it.attr attrs <;> rw [hv] at hkind hc <;> simp only [Bool.false_eq_true] at hkind
        rename_i l
        simp only [serMembers_list] at hc
        split at hc
        · rename_i e he
          cases hc
          obtain ⟨p, hp, hpe⟩ := elemKids_error he
          rw [List.mem_map] at hp
          obtain ⟨w, hw', rfl⟩ := hp
          have htw := typed_member ht hv hw'
          rcases hpe with he | ⟨_, he⟩
          · exact Or.inl (truthy_typed_error hL htw he)
          · refine ihl it.attr l (attrOf_mem hv (by simp)) w hw' htw ?_ x he
            have := List.all_eq_true.mp hkind w hw'
            cases w <;> simp only [isInst, Bool.false_eq_true] at this
            exact ⟨_, _, _, _, rfl⟩
        · cases hc
      case subDtList =>
        obtain ⟨hsp, ha⟩ := hw.whens.mp hg
        rw [getattr_serAttrs, if_pos ⟨hsp, Or.inl ha⟩, propOf, if_pos ⟨hsp, ha⟩] at hc
        have he : ∀ l, eqDflt (.whens l : Val C F) it.dflt = false := by intro l; cases it.dflt <;> rfl
        simp only [contrib, hw.set, hg, setOf, SView.prop,
          getValue_other (v := (.whens (trackWhens (itemsOf' attrs)) : Val C F)) rfl (he _)] at hc
        cases hc
      case coordsList =>
        obtain ⟨hsp, ha⟩ := hw.coords.mp hg
        have hva : ∃ l, propOf (L.info c).special attrs it.attr = .coords l := by
          rw [propOf, if_neg (by rintro ⟨_, h⟩; rw [h] at ha; revert ha; decide)]
          split
          · exact ⟨_, rfl⟩
          · rename_i h
            rw [if_pos]
            · exact ⟨_, rfl⟩
            · rcases ha with ha | ha
              · exact absurd ⟨hsp, ha⟩ h
              · exact ⟨hsp, ha⟩
        obtain ⟨l, hva⟩ := hva
        rw [getattr_serAttrs, if_pos ⟨hsp, Or.inr ha⟩, hva] at hc
        have he : eqDflt (.coords l : Val C F) it.dflt = false := by cases it.dflt <;> rfl
        simp only [contrib, hw.set, hg, setOf, SView.prop,
          getValue_other (v := (.coords l : Val C F)) rfl he] at hc
        cases hc

end Verif
