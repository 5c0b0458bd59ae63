import Verif.Spec.Cycle
import Verif.Lemmas.Names
import Verif.Lemmas.Reading
import Verif.Lemmas.Coords
import Verif.Props.Times
import Verif.Props.Scalars

/-!
# A write/read cycle
-/

set_option linter.unusedSectionVars false
set_option linter.unusedSimpArgs false

namespace Verif

open Spec

variable {C F : Type} [DecidableEq C] [PyExt F]

/-! ## Equations for `cycle` -/

theorem cycle_obj (L : Lib C) (o : Opts) (N : NsMap) (c : C) (ns : Str) (nss : NsMap)
    (attrs : List (Str × Val C F)) :
    cycle L o N (.obj c ns nss attrs) = .obj c ns N (cycleStep L o c attrs (cycleAttrs L o N attrs)) := by
  simp only [cycle]

theorem cycleList_eq (L : Lib C) (o : Opts) (N : NsMap) (l : List (Val C F)) :
    cycleList L o N l = (l.filter (nonEmpty L)).map (cycle L o N) := by
  induction l with
  | nil => simp only [cycleList, List.filter_nil, List.map_nil]
  | cons v l ih =>
    simp only [cycleList, List.filter_cons, ih]
    split <;> simp

theorem cycleAttrs_eq (L : Lib C) (o : Opts) (N : NsMap) (attrs : List (Str × Val C F)) :
    cycleAttrs L o N attrs = attrs.map fun p => (p.1, cycle L o N p.2, cycleMembers L o N p.2) := by
  induction attrs with
  | nil => simp only [cycleAttrs, List.map_nil]
  | cons p attrs ih => obtain ⟨a, v⟩ := p; simp only [cycleAttrs, ih, List.map_cons]

theorem dget_cycleAttrs (L : Lib C) (o : Opts) (N : NsMap) (a : Str) (attrs : List (Str × Val C F)) :
    (dget a (cycleAttrs L o N attrs)).getD (.none, []) =
      (cycle L o N (attrOf a attrs), cycleMembers L o N (attrOf a attrs)) := by
  rw [cycleAttrs_eq]
  have := dget_map_kv (fun v => (cycle L o N v, cycleMembers L o N v)) a attrs
  rw [this]
  unfold attrOf
  cases dget a attrs with
  | none => simp [cycle, cycleMembers]
  | some v => rfl

theorem cycleMembers_list (L : Lib C) (o : Opts) (N : NsMap) (l : List (Val C F)) :
    cycleMembers L o N (.list l) = (l.filter (nonEmpty L)).map (cycle L o N) := by
  simp only [cycleMembers, cycleList_eq]

/-- The attributes of the result. -/
theorem cycleStep_eq (L : Lib C) (o : Opts) (N : NsMap) (c : C) (attrs : List (Str × Val C F)) :
    cycleStep L o c attrs (cycleAttrs L o N attrs) =
      (if (L.info c).special = .track then
        [(s% "track_items", .items ((rows attrs).map (rereadRow o.precision)))] else []) ++
      (L.info c).slots.map fun s =>
        (s.1, cycleAttr L o c attrs (cycle L o N (attrOf s.1 attrs)) (cycleMembers L o N (attrOf s.1 attrs))
          s.1 s.2) := by
  unfold cycleStep
  simp only [dget_cycleAttrs]

theorem cycle_isInst (L : Lib C) (o : Opts) (N : NsMap) (cs : List (PyType C)) (v : Val C F) :
    isInst cs (cycle L o N v) = isInst cs v := by
  cases v <;> simp only [cycle, isInst]

theorem roundTo_eq (p : Option Nat) : (roundTo p : F → F) = rounded p := rfl

/-! ## What the constructors store -/

/-- Norms with which values survive. -/
def normKeep (g : GetFn) (n : Norm) : Bool :=
  match g with
  | .nodeText | .subText => decide (n = .clean)
  | .attrText => decide (n = .clean ∨ n = .orEmpty)
  | .attrEnum => decide (n = .raw ∨ n = .orNone)
  | .xmlSubList => decide (n = .listOr ∨ n = .listNotNone ∨ n = .listTruthy)
  | .coordinates => decide (n = .coordsOr)
  | _ => decide (n = .raw)

/-- What a cycle needs of a class. -/
def cycleOk (L : Lib C) (c : C) : Bool :=
  ((L.info c).slots.all fun s => (L.itemsOf c).all fun it => decide (it.attr ≠ s.1) || normKeep it.get s.2) &&
  (decide ((L.info c).special ≠ .track) ||
    (decide ((s% "whens", GetFn.subDtList) ∈ (L.itemsOf c).map fun it => (it.attr, it.get)) &&
     decide ((s% "coords", GetFn.coordsList) ∈ (L.itemsOf c).map fun it => (it.attr, it.get)) &&
     decide ((s% "angles", GetFn.coordsList) ∈ (L.itemsOf c).map fun it => (it.attr, it.get)))) &&
  (decide ((L.info c).special ≠ .schema) ||
    decide ((s% "id", GetFn.attrText, Dflt.none) ∈ (L.itemsOf c).map fun it => (it.attr, it.get, it.dflt))) 

structure CycleOk (L : Lib C) (c : C) : Prop where
  norm : ∀ a n, (a, n) ∈ (L.info c).slots → ∀ it ∈ L.itemsOf c, it.attr = a → normKeep it.get n = true
  track : (L.info c).special = .track →
    (∃ it ∈ L.itemsOf c, it.attr = s% "whens" ∧ it.get = .subDtList) ∧
    (∃ it ∈ L.itemsOf c, it.attr = s% "coords" ∧ it.get = .coordsList) ∧
    (∃ it ∈ L.itemsOf c, it.attr = s% "angles" ∧ it.get = .coordsList)
  schema : (L.info c).special = .schema → ∃ it ∈ L.itemsOf c, it.attr = s% "id" ∧ it.get = .attrText ∧ it.dflt = .none

theorem cycleOk_iff {L : Lib C} {c : C} (h : cycleOk L c = true) : CycleOk L c := by
  simp only [cycleOk, Bool.and_eq_true, Bool.or_eq_true, List.all_eq_true, decide_eq_true_eq, List.mem_map,
    Prod.mk.injEq] at h
  obtain ⟨⟨h1, h2⟩, h3⟩ := h
  refine ⟨fun a n hs it hit ha => ?_, fun hs => ?_, fun hs => ?_⟩
  · rcases h1 _ hs it hit with h | h
    · exact absurd ha h
    · exact h
  · rcases h2 with h | ⟨⟨⟨i1, a1, b1⟩, ⟨i2, a2, b2⟩⟩, ⟨i3, a3, b3⟩⟩
    · exact absurd hs h
    · exact ⟨⟨i1, a1, b1⟩, ⟨i2, a2, b2⟩, ⟨i3, a3, b3⟩⟩
  · rcases h3 with h | ⟨i, a, b⟩
    · exact absurd hs h
    · exact ⟨i, a, b⟩

theorem fastkml_cycleOk (c : Cls) : CycleOk fastkml c := by
  have : ∀ c ∈ Cls.all, cycleOk fastkml c = true := by decide +kernel
  exact cycleOk_iff (this c (Cls.mem_all c))

/-! ## Scalars -/

/-- The value that is read for a written scalar. -/
def kwScalar (g : GetFn) : Val C F → Option (Val C F)
  | .none => none
  | .str s => if place g = .attr then (if s = [] then none else some (.str s))
    else if strip s = [] then none else some (.str (strip s))
  | .int i => some (if g = .subFloat ∨ g = .attrFloat then .float (PyExt.ofInt i) else .int i)
  | v => some v

/-- The text that is looked at. -/
def seenText (g : GetFn) (t : Option Str) : Option Str := if place g = .attr then given t else trimmed t

theorem seen_noSpace {g : GetFn} {s : Str} (h : ∀ c ∈ s, isSpace c = false) (hn : s ≠ []) :
    seenText g (some s) = some s := by
  unfold seenText
  split
  · simp [given, hn]
  · simp [trimmed, strip_noSpace h, hn]

theorem enumValues_noSpace {e : EnumId} {x : Str} (h : x ∈ e.values) : (∀ c ∈ x, isSpace c = false) ∧ x ≠ [] := by
  have : ∀ e : EnumId, ∀ x ∈ e.values, (∀ c ∈ x, isSpace c = false) ∧ x ≠ [] := by
    intro e; cases e <;> decide
  exact this e x h

theorem boolText_read (b strict : Bool) :
    getBooleanValue F (if b then s% "1" else s% "0") strict = some b := by
  cases b <;> cases strict <;> simp [getBooleanValue, lower, lowerChar] <;> decide

variable [LawfulExt F]

/-- A written scalar is read. -/
theorem scalar_read {P : Pt F → Bool} {it : Item C} (hs : scalar it.get = true) (hc : classesOk it = true) {w : Val C F}
    (hk : kindOk P it w = true) (ht : ∀ k, w = .dt k → Rereadable k) (strict : Bool) :
    scalarResult strict it (seenText it.get (scalarText w)) = .ok (kwScalar it.get w) := by
  have hnum : ∀ i : Int, seenText it.get (some (intRepr i)) = some (intRepr i) := fun i =>
    seen_noSpace (intRepr_noSpace i) (intRepr_ne_nil i)
  have hnone : seenText it.get none = none := by unfold seenText; split <;> rfl
  cases w with
  | none => simp [scalarText, kwScalar, hnone, scalarResult]
  | str s =>
    have hg : it.get = .nodeText ∨ it.get = .subText ∨ it.get = .attrText := by
      revert hk hs; simp only [kindOk]; cases it.get <;> simp [scalar, place]
    have hp : place it.get = .attr ↔ it.get = .attrText := by rcases hg with h | h | h <;> simp [h, place]
    have hden : ∀ t, (denotes strict it t : Option (Val C F)) = some (.str t) := by
      intro t; rcases hg with h | h | h <;> simp [denotes, h]
    simp only [scalarText, kwScalar, seenText]
    by_cases h0 : s = []
    · subst h0
      have : strip ([] : Str) = [] := rfl
      simp [given, trimmed, scalarResult, this]
    · simp only [h0, if_false, given, trimmed]
      split
      · simp [scalarResult, hden]
      · split
        · simp [scalarResult]
        · simp [scalarResult, hden]
  | bool b =>
    have hg : it.get = .subBool := by revert hk hs; simp only [kindOk]; cases it.get <;> simp [scalar, place]
    have hsn : seenText it.get (some (if b then s% "1" else s% "0")) = some (if b then s% "1" else s% "0") := by
      apply seen_noSpace
      · cases b <;> decide
      · cases b <;> decide
    simp only [scalarText, hsn, scalarResult, kwScalar]
    simp only [denotes, hg, boolText_read, Option.map_some]
  | int i =>
    have hg : it.get = .subInt ∨ it.get = .attrInt ∨ it.get = .subFloat ∨ it.get = .attrFloat := by
      revert hk hs; simp only [kindOk]; cases it.get <;> simp [scalar, place]
    simp only [scalarText, hnum, scalarResult, kwScalar]
    rcases hg with h | h | h | h <;> simp [denotes, h, intParse_intRepr, LawfulExt.parse_int]
  | float f =>
    have hg : it.get = .subFloat ∨ it.get = .attrFloat := by revert hk hs; simp only [kindOk]; cases it.get <;> simp [scalar, place]
    have hpl := LawfulExt.repr_plain f
    simp only [scalarText, seen_noSpace (g := it.get) (fun c hc => (hpl.2 c hc).1) hpl.1, scalarResult, kwScalar]
    rcases hg with h | h <;> simp [denotes, h, LawfulExt.parse_repr]
  | enum e x =>
    have hg : it.get = .subEnum ∨ it.get = .attrEnum := by revert hk hs; simp only [kindOk]; cases it.get <;> simp [scalar, place]
    have hx : it.classes = [.enum e] ∧ x ∈ e.values := by
      revert hk; rcases hg with h | h <;> simp [kindOk, h]
    obtain ⟨h1, h2⟩ := enumValues_noSpace hx.2
    simp only [scalarText, seen_noSpace (g := it.get) h1 h2, scalarResult, kwScalar]
    rcases hg with h | h <;> simp [denotes, h, hx.1, C19_roundtrip e x hx.2 strict]
  | dt k =>
    have hg : it.get = .subDt := by revert hk hs; simp only [kindOk]; cases it.get <;> simp [scalar, place]
    obtain ⟨⟨m, r, hm, hmk⟩, hy, ho⟩ := ht k rfl
    have hp := C20_roundtrip (F := F) m hm r k hmk hy ho
    simp only [scalarText, seen_noSpace (g := it.get) (toStr_noSpace k) (toStr_ne_nil k), scalarResult, kwScalar]
    simp [denotes, hg, hp]
  | floats l => revert hk hs; simp only [kindOk]; cases it.get <;> simp [scalar, place]
  | coords l => revert hk hs; simp only [kindOk]; cases it.get <;> simp [scalar, place]
  | whens l => revert hk hs; simp only [kindOk]; cases it.get <;> simp [scalar, place]
  | items l => revert hk hs; simp only [kindOk]; cases it.get <;> simp [scalar, place]
  | obj c ns nss as => revert hk hs; simp only [kindOk]; cases it.get <;> simp [scalar, place]
  | list l => revert hk hs; simp only [kindOk]; cases it.get <;> simp [scalar, place]

omit [LawfulExt F] in
/-- A scalar is stored as described. -/
theorem normalise_kwScalar {L : Lib C} {P : Pt F → Bool} {it : Item C} (hs : scalar it.get = true) {w : Val C F}
    (hk : kindOk P it w = true) {n : Norm} (hn : normKeep it.get n = true) :
    normalise L n ((kwScalar it.get w).getD .none) = .ok (reread it.get (decide (n = .orEmpty)) w) := by
  have hcl : ∀ s : Str, normalise (F := F) L .clean (.str s) = .ok (if strip s = [] then .none else .str (strip s)) := by
    intro s
    simp only [normalise, cleanString_trimmed, trimmed]
    split <;> rename_i h <;> split at h <;> simp_all
  have hcl2 : ∀ s : Str, normalise (F := F) L .clean ((if strip s = [] then none else some (Val.str (strip s))).getD .none) =
      .ok (if strip s = [] then .none else .str (strip s)) := by
    intro s
    split
    · simp [normalise]
    · rename_i h
      simp [hcl, strip_idem, h]
  revert hk hs hn
  cases w with
  | str s =>
    simp only [kindOk]
    cases it.get <;> simp [scalar, place, normKeep]
    · rintro rfl; simp [kwScalar, reread, place, hcl2]
    · rintro rfl; simp [kwScalar, reread, place, hcl2]
    · intro h
      by_cases h0 : s = []
      · subst h0
        have : strip ([] : Str) = [] := rfl
        rcases h with rfl | rfl <;> simp [kwScalar, reread, place, normalise, this]
      · rcases h with rfl | rfl
        · simp [kwScalar, reread, place, h0, hcl]
        · simp [kwScalar, reread, place, h0, normalise]
  | _ =>
    simp only [kindOk]
    cases it.get <;> simp [scalar, place, normKeep] <;> intros <;>
      (repeat (rename_i h; rcases h with h | h)) <;> subst_vars <;>
      simp_all [kwScalar, reread, normalise, truthy, info, Info.plain, place]

/-! ## The attributes of the result -/

section Attrs
omit [LawfulExt F]

theorem find_attr {items : List (Item C)} (hn : (items.map (·.attr)).Nodup) {it : Item C} (hit : it ∈ items) :
    items.find? (fun i => decide (i.attr = it.attr)) = some it := by
  induction items with
  | nil => cases hit
  | cons i items ih =>
    simp only [List.map_cons, List.nodup_cons] at hn
    rw [List.find?_cons]
    rcases List.mem_cons.mp hit with rfl | hit'
    · simp
    · have hne : i.attr ≠ it.attr := by
        intro h; exact hn.1 (h ▸ List.mem_map_of_mem (f := (·.attr)) hit')
      simp [hne, ih hn.2 hit']

theorem cycleAttr_item {L : Lib C} {c : C} (hR : ReadOk L c) {it : Item C} (hit : it ∈ L.itemsOf c) (o : Opts)
    (attrs : List (Str × Val C F)) (y : Val C F) (ys : List (Val C F)) (n : Norm) :
    cycleAttr L o c attrs y ys it.attr n = match place it.get with
      | .object => if nonEmpty L (attrOf it.attr attrs) then y else .none
      | .objects =>
        .list (if n = .listTruthy then (regroup it.classes ys).filter (nonEmpty L) else regroup it.classes ys)
      | _ =>
        if it.get = .coordinates then rereadCoords o.precision (attrOf it.attr attrs)
        else reread it.get (decide (n = .orEmpty)) (shown o.verbosity it.dflt.val (attrOf it.attr attrs)) := by
  unfold cycleAttr
  rw [find_attr hR.attrs hit]
  rfl

theorem attrOf_slots {slots : List (Str × Norm)} (hn : (slots.map Prod.fst).Nodup) {g : Str → Norm → Val C F}
    {a : Str} {n : Norm} (ha : (a, n) ∈ slots) :
    dget a (slots.map fun s => (s.1, g s.1 s.2)) = some (g a n) := by
  apply dget_of_mem
  · rw [List.map_map]; exact hn
  · exact List.mem_map.mpr ⟨(a, n), ha, rfl⟩

theorem cycleStep_attrOf {L : Lib C} {c : C} (hR : ReadOk L c) {a : Str} {n : Norm}
    (ha : (a, n) ∈ (L.info c).slots) (o : Opts) (N : NsMap) (attrs : List (Str × Val C F)) :
    attrOf a (cycleStep L o c attrs (cycleAttrs L o N attrs)) =
      cycleAttr L o c attrs (cycle L o N (attrOf a attrs)) (cycleMembers L o N (attrOf a attrs)) a n := by
  have hk := hR.known
  rw [List.nodup_append] at hk
  rw [cycleStep_eq]
  unfold attrOf
  rw [dget_append]
  have h1 : dget a (if (L.info c).special = .track then
      [(s% "track_items", (.items ((rows attrs).map (rereadRow o.precision)) : Val C F))] else []) = none := by
    split
    · rename_i ht
      rw [dget_eq_none]
      intro h
      simp only [List.map_cons, List.map_nil, List.mem_singleton] at h
      refine hk.2.2 a ?_ a (List.mem_map_of_mem (f := Prod.fst) ha) rfl
      rw [ht, h]; simp [specialArgs]
    · rfl
  rw [h1, Option.none_or]
  rw [attrOf_slots hk.2.1 (g := fun a n => cycleAttr L o c attrs (cycle L o N ((dget a attrs).getD .none))
    (cycleMembers L o N ((dget a attrs).getD .none)) a n) ha]
  rfl

theorem cycleStep_rows {L : Lib C} {c : C} (ht : (L.info c).special = .track) (o : Opts) (N : NsMap)
    (attrs : List (Str × Val C F)) :
    attrOf (s% "track_items") (cycleStep L o c attrs (cycleAttrs L o N attrs)) =
      .items ((rows attrs).map (rereadRow o.precision)) := by
  rw [cycleStep_eq, if_pos ht]; rfl

theorem regroup_mem {cs : List (PyType C)} {l : List (Val C F)} {v : Val C F} (h : v ∈ regroup cs l) : v ∈ l := by
  simp only [regroup, List.mem_flatMap, List.mem_filter] at h
  obtain ⟨_, _, h, _⟩ := h; exact h

theorem regroup_inst {cs : List (PyType C)} {l : List (Val C F)} {v : Val C F} (h : v ∈ regroup cs l) :
    isInst cs v = true := by
  simp only [regroup, List.mem_flatMap, List.mem_filter] at h
  obtain ⟨t, ht, _, h⟩ := h
  cases v <;> simp [isInst] at h ⊢
  rw [h]; exact ht

theorem kindOk_reread {P : Pt F → Bool} {it : Item C} (hs : scalar it.get = true) {w : Val C F}
    (hk : kindOk P it w = true) {n : Norm} (hn : normKeep it.get n = true) :
    kindOk P it (reread it.get (decide (n = .orEmpty)) w) = true := by
  revert hk hs hn
  cases w <;> simp only [kindOk] <;> cases it.get <;> simp [scalar, place, normKeep, reread] <;> cases n <;>
    simp <;> intros <;> (try constructor) <;> (try assumption) <;> (repeat' (split <;> simp_all))

/-- Coordinates stay admissible when they are rounded. -/
def RoundOk (P : Pt F → Bool) : Prop := ∀ p c, P c = true → P (c.map (roundTo p)) = true

theorem roundOk_dim23 : RoundOk (F := F) dim23 := by
  intro p c h
  simpa [dim23] using h

theorem obj_of_inst {cs : List (PyType C)} {v : Val C F} (h : isInst cs v = true) :
    ∃ d ns nss as, v = .obj d ns nss as ∧ .cls d ∈ cs := by
  cases v <;> simp [isInst] at h
  exact ⟨_, _, _, _, rfl, h⟩

theorem cycleMembers_mem {L : Lib C} {o : Opts} {N : NsMap} {v w : Val C F} (h : w ∈ cycleMembers L o N v) :
    ∃ l u, v = .list l ∧ u ∈ l ∧ nonEmpty L u = true ∧ w = cycle L o N u := by
  cases v with
  | list l =>
    rw [cycleMembers_list, List.mem_map] at h
    obtain ⟨u, hu, rfl⟩ := h
    rw [List.mem_filter] at hu
    exact ⟨l, u, rfl, hu.1, hu.2, rfl⟩
  | _ => simp [cycleMembers] at h

/-- The value of a registered attribute of the result. -/
theorem cycle_item {L : Lib C} {c : C} (hR : ReadOk L c) (hC : CycleOk L c) {it : Item C} (hit : it ∈ L.itemsOf c)
    (h1 : it.get ≠ .subDtList) (h2 : it.get ≠ .coordsList) (o : Opts) (N : NsMap) (attrs : List (Str × Val C F)) :
    ∃ n, (it.attr, n) ∈ (L.info c).slots ∧ normKeep it.get n = true ∧
      attrOf it.attr (cycleStep L o c attrs (cycleAttrs L o N attrs)) =
        cycleAttr L o c attrs (cycle L o N (attrOf it.attr attrs)) (cycleMembers L o N (attrOf it.attr attrs))
          it.attr n := by
  obtain ⟨n, hn, _⟩ := slotOk_slot (hR.slots it hit) h1 h2
  exact ⟨n, hn, hC.norm _ n hn it hit rfl, cycleStep_attrOf hR hn o N attrs⟩

theorem typed_unset {L : Lib C} {P : Pt F → Bool} (n : Norm) : typed L P (unset n : Val C F) = true ∧
    ∀ l, (unset n : Val C F) = .list l → ∀ w ∈ l, typed L P w = true := by
  cases n <;> simp [unset, typed]

/-- The result is well typed. -/
theorem typed_cycle {L : Lib C} (hR : ∀ c, ReadOk L c) (hW : ∀ c, WriteOk L c) (hC : ∀ c, CycleOk L c) {P : Pt F → Bool}
    (hP : RoundOk P) (o : Opts) (N : NsMap) (v : Val C F) : typed L P v = true → typed L P (cycle L o N v) = true := by
  induction v using Val.objInd with
  | hother v hv => intro _; cases v <;> first | exact absurd rfl (hv _ _ _ _) | simp [cycle, typed]
  | hobj c ns nss attrs ih1 ih2 =>
    intro ht
    have hty := typed_obj.mp ht
    rw [cycle_obj, typed_obj]
    -- objects in attributes
    have hsub : ∀ a, typed L P (cycle L o N (attrOf a attrs)) = true := by
      intro a
      by_cases h : attrOf a attrs = .none
      · rw [h]; simp [cycle, typed]
      · exact ih1 a _ (attrOf_mem rfl h) (typed_attrOf ht a)
    have hmem : ∀ a w, w ∈ cycleMembers L o N (attrOf a attrs) → typed L P w = true := by
      intro a w hw
      obtain ⟨l, u, hl, hu, _, rfl⟩ := cycleMembers_mem hw
      exact ih2 a l (attrOf_mem hl (by simp)) u hu (typed_member ht hl hu)
    have hca : ∀ a n, (a, n) ∈ (L.info c).slots → ∀ v, v = cycleAttr L o c attrs (cycle L o N (attrOf a attrs))
        (cycleMembers L o N (attrOf a attrs)) a n →
        typed L P v = true ∧ ∀ l, v = .list l → ∀ w ∈ l, typed L P w = true := by
      intro a n hs v hv
      by_cases hit : ∃ it ∈ L.itemsOf c, it.attr = a
      · obtain ⟨it, hit, rfl⟩ := hit
        rw [cycleAttr_item (hR c) hit] at hv
        have hscal : ∀ w : Val C F, (∀ d ns nss as, w ≠ .obj d ns nss as) → (∀ l, w ≠ .list l) →
            typed L P w = true ∧ ∀ l, w = .list l → ∀ w ∈ l, typed L P w = true := by
          intro w h1 h2
          refine ⟨?_, fun l hl => absurd hl (h2 l)⟩
          cases w <;> first | exact absurd rfl (h1 _ _ _ _) | simp [typed]
        split at hv
        · subst hv
          split
          · refine ⟨hsub _, fun l hl => ?_⟩
            have hk := hty.1 it hit
            rename_i hpl _
            have hg : it.get = .xmlSub := by revert hpl; cases it.get <;> simp [place]
            simp only [kindOk, hg] at hk
            cases hv : attrOf it.attr attrs <;> simp [hv, isInst] at hk <;> rw [hv] at hl <;> simp [cycle] at hl
          · exact ⟨by simp [typed], by simp⟩
        · subst hv
          refine ⟨by simp [typed], fun l hl w hw => ?_⟩
          simp only [Val.list.injEq] at hl
          subst hl
          split at hw
          · exact hmem _ _ (regroup_mem (List.mem_filter.mp hw).1)
          · exact hmem _ _ (regroup_mem hw)
        · split at hv
          · subst hv
            apply hscal <;> (intros; unfold rereadCoords; split <;> simp)
          · rename_i hpo hpl hco
            by_cases hsc : scalar it.get = true
            · have hk := kindOk_shown hsc ((hW c).item it hit).dflt (hty.1 it hit) o.verbosity
              have hk' := kindOk_reread hsc hk ((hC c).norm _ n hs it hit rfl)
              rw [← hv] at hk'
              apply hscal
              · rintro d ns nss as rfl
                revert hk' hsc; simp only [kindOk]; cases it.get <;> simp [scalar, place]
              · rintro l rfl
                revert hk' hsc; simp only [kindOk]; cases it.get <;> simp [scalar, place]
            · exfalso
              rcases slotOk_iff ((hR c).slots it hit) with ⟨m, hm, hno⟩ | ⟨htr, _⟩
              · revert hsc hno hpo hpl hco; cases it.get <;> simp [scalar, place, normOk]
              · have hk := (hR c).known
                rw [List.nodup_append] at hk
                refine hk.2.2 it.attr ?_ it.attr (List.mem_map_of_mem (f := Prod.fst) hs) rfl
                have := slotOk_iff ((hR c).slots it hit)
                rename_i h'
                rw [htr]
                rcases h' with h' | h' | h' <;> rw [h'.1] <;> simp [specialArgs]
      · have hf : (L.itemsOf c).find? (fun it => decide (it.attr = a)) = none := by
          rw [List.find?_eq_none]
          intro it hi; simp only [decide_eq_true_eq]; exact fun h => hit ⟨it, hi, h⟩
        have : v = unset n := by rw [hv]; unfold cycleAttr; rw [hf]
        rw [this]; exact typed_unset n
    refine ⟨fun it hit => ?_, fun htr => ?_, fun a v hv => ?_, fun a l hl => ?_⟩
    · by_cases h1 : it.get = .subDtList
      · simp [kindOk, h1]
      by_cases h2 : it.get = .coordsList
      · simp [kindOk, h2]
      obtain ⟨n, hn, hnk, heq⟩ := cycle_item (hR c) (hC c) hit h1 h2 o N attrs
      rw [heq, cycleAttr_item (hR c) hit]
      have hk := hty.1 it hit
      split
      · rename_i hpl
        have hg : it.get = .xmlSub := by revert hpl; cases it.get <;> simp [place]
        split
        · rename_i hne
          simp only [kindOk, hg] at hk ⊢
          cases hv : attrOf it.attr attrs <;> simp [hv, isInst] at hk <;> simp [cycle, isInst, hk]
        · simp [kindOk, hg]
      · rename_i hpl
        have hg : it.get = .xmlSubList := by revert hpl; cases it.get <;> simp [place]
        simp only [kindOk, hg, List.all_eq_true]
        intro w hw
        split at hw
        · exact regroup_inst (List.mem_filter.mp hw).1
        · exact regroup_inst hw
      · split
        · rename_i hg
          simp only [kindOk, hg] at hk ⊢
          cases hv : attrOf it.attr attrs <;> simp [hv] at hk
          simp only [rereadCoords, List.all_map, List.all_eq_true]
          intro p hp
          exact hP _ _ (hk p hp)
        · rename_i hpo hpl hco
          have hsc : scalar it.get = true := by
            revert hpo hpl hco h1 h2; cases it.get <;> simp [scalar, place]
          exact kindOk_reread hsc (kindOk_shown hsc ((hW c).item it hit).dflt hk o.verbosity) hnk
    · unfold trackOk
      rw [attr_eq, cycleStep_rows htr]
      simp only [List.all_eq_true, List.mem_map, decide_eq_true_eq]
      rintro _ ⟨r, hr, rfl⟩
      have := hty.2.1 htr
      unfold trackOk at this
      unfold rows at hr
      split at this
      · rename_i l hl
        rw [hl] at hr
        simp only [List.all_eq_true, decide_eq_true_eq] at this
        have := this r hr
        simpa [rereadRow] using this
      · cases this
    · rw [cycleStep_eq, List.mem_append] at hv
      rcases hv with hv | hv
      · split at hv
        · simp only [List.mem_singleton, Prod.mk.injEq] at hv
          rw [hv.2]; simp [typed]
        · cases hv
      · obtain ⟨⟨b, n⟩, hs, he⟩ := List.mem_map.mp hv
        simp only [Prod.mk.injEq] at he
        obtain ⟨rfl, rfl⟩ := he
        exact (hca b n hs _ rfl).1
    · rw [cycleStep_eq, List.mem_append] at hl
      rcases hl with hv | hv
      · split at hv
        · simp only [List.mem_singleton, Prod.mk.injEq] at hv
          cases hv.2
        · cases hv
      · obtain ⟨⟨b, n⟩, hs, he⟩ := List.mem_map.mp hv
        simp only [Prod.mk.injEq] at he
        obtain ⟨rfl, he⟩ := he
        exact (hca b n hs _ rfl).2 l he

end Attrs

end Verif
