import Verif.Base
import Verif.Lemmas.Py
import Verif.Spec.Lists

/-!
# Lemmas about reading
-/

set_option linter.unusedSectionVars false
set_option linter.unusedSimpArgs false

namespace Verif

variable {C F : Type} [DecidableEq C] [PyExt F]

/-! ## Induction on elements -/

mutual
/-- Induction on element trees: the hypothesis holds for all children. -/
theorem Xml.ind {P : Xml → Prop}
    (h : ∀ t a x ks, (∀ k ∈ ks, P k) → P (.mk t a x ks)) : ∀ e, P e
  | .mk t a x ks => h t a x ks (Xml.indList h ks)
theorem Xml.indList {P : Xml → Prop}
    (h : ∀ t a x ks, (∀ k ∈ ks, P k) → P (.mk t a x ks)) : ∀ ks : List Xml, ∀ k ∈ ks, P k
  | [], _, hk => by cases hk
  | k :: ks, k', hk => by
    have h1 := Xml.ind h k
    have h2 := Xml.indList h ks
    rcases List.mem_cons.mp hk with hk | hk
    · rw [hk]; exact h1
    · exact h2 _ hk
end

/-! ## Children -/

/-- The children of an element prepared for reading with `f`. -/
def kidsOf (f : Xml → C → Str → NsMap → Except Err (Val C F)) (ks : List Xml) : List (Kid C F) :=
  ks.map fun k => ⟨k.tag, f k⟩

theorem parseKids_eq (L : Lib C) (strict : Bool) (ks : List Xml) :
    parseKids (F := F) L strict ks = kidsOf (parse L strict) ks := by
  induction ks with
  | nil => simp [parseKids, kidsOf]
  | cons k ks ih => simp only [parseKids, ih, kidsOf, List.map_cons]

theorem parse_eq (L : Lib C) (strict : Bool) (e : Xml) (c : C) (ns : Str) (nss : NsMap) :
    parse (F := F) L strict e c ns nss =
      parseStep L strict e (kidsOf (parse L strict) e.kids) c ns nss := by
  cases e with
  | mk t a x ks => simp only [parse, parseKids_eq]; rfl

theorem find_kidsOf (f : Xml → C → Str → NsMap → Except Err (Val C F)) (ks : List Xml) (t : Str) :
    (kidsOf f ks).find? (fun k => decide (k.tag = t)) =
      (ks.find? (fun k => decide (k.tag = t))).map fun k => ⟨k.tag, f k⟩ := by
  simp only [kidsOf, List.find?_map]
  rfl

theorem filter_kidsOf (f : Xml → C → Str → NsMap → Except Err (Val C F)) (ks : List Xml) (t : Str) :
    (kidsOf f ks).filter (fun k => decide (k.tag = t)) =
      kidsOf f (ks.filter (fun k => decide (k.tag = t))) := by
  simp only [kidsOf, List.filter_map]
  rfl

/-! ## `readAll` -/

theorem readAll_ok {c : C} {ns : Str} {nss : NsMap} {ks : List (Kid C F)} {vs : List (Val C F)}
    (h : readAll c ns nss ks = .ok vs) :
    vs.length = ks.length ∧ ∀ p ∈ ks.zip vs, p.1.read c ns nss = .ok p.2 := by
  induction ks generalizing vs with
  | nil => simp [readAll] at h; subst h; simp
  | cons k ks ih =>
    simp only [readAll] at h
    split at h
    · cases h
    · rename_i v hv
      split at h
      · cases h
      · rename_i ws hws
        simp at h; subst h
        obtain ⟨h1, h2⟩ := ih hws
        refine ⟨by simp [h1], ?_⟩
        intro p hp
        rcases List.mem_cons.mp hp with rfl | hp
        · exact hv
        · exact h2 p hp

theorem readAll_forall2 {f : Xml → C → Str → NsMap → Except Err (Val C F)} {c : C} {ns : Str}
    {nss : NsMap} {ks : List Xml} {vs : List (Val C F)} :
    readAll c ns nss (kidsOf f ks) = .ok vs ↔ Spec.All2 (fun k v => f k c ns nss = .ok v) ks vs := by
  induction ks generalizing vs with
  | nil =>
    simp only [kidsOf, List.map_nil, readAll, Except.ok.injEq]
    constructor
    · rintro rfl; exact .nil
    · intro h; cases h; rfl
  | cons k ks ih =>
    simp only [kidsOf, List.map_cons, readAll]
    constructor
    · intro h
      split at h
      · cases h
      · rename_i v hv
        split at h
        · cases h
        · rename_i ws hws
          simp at h; subst h
          exact .cons hv (ih.mp hws)
    · intro h
      cases h with
      | cons h1 h2 =>
        have := ih.mpr h2
        simp only [kidsOf] at this
        simp only [h1, this]

/-! ## The keyword arguments -/

/-- The keyword arguments made of one optional value per item. -/
def kwOf (r : Item C → Option (Val C F)) (items : List (Item C)) : List (Str × Val C F) :=
  items.filterMap fun it => (r it).map fun v => (it.attr, v)

theorem kwOf_cons (r : Item C → Option (Val C F)) (it : Item C) (items : List (Item C)) :
    kwOf r (it :: items) = (match r it with | none => [] | some v => [(it.attr, v)]) ++ kwOf r items := by
  simp only [kwOf, List.filterMap_cons]
  cases r it <;> simp

theorem kwOf_keys {r : Item C → Option (Val C F)} {items : List (Item C)} {a : Str}
    (h : a ∈ (kwOf r items).map Prod.fst) : a ∈ items.map (·.attr) := by
  simp only [kwOf, List.mem_map, List.mem_filterMap, Option.map_eq_some_iff] at h
  obtain ⟨p, ⟨it, hit, v, _, rfl⟩, rfl⟩ := h
  exact List.mem_map_of_mem hit

theorem kwOf_nodup {r : Item C → Option (Val C F)} {items : List (Item C)}
    (h : (items.map (·.attr)).Nodup) : ((kwOf r items).map Prod.fst).Nodup := by
  induction items with
  | nil => simp [kwOf]
  | cons it items ih =>
    simp only [List.map_cons, List.nodup_cons] at h
    rw [kwOf_cons, List.map_append, List.nodup_append]
    refine ⟨?_, ih h.2, ?_⟩
    · cases r it <;> simp
    · intro a ha b hb hab
      subst hab
      cases hr : r it with
      | none => simp [hr] at ha
      | some v =>
        simp [hr] at ha; subst ha
        exact h.1 (kwOf_keys hb)

theorem dget_kwOf {r : Item C → Option (Val C F)} {items : List (Item C)}
    (h : (items.map (·.attr)).Nodup) {it : Item C} (hit : it ∈ items) :
    dget it.attr (kwOf r items) = r it := by
  induction items with
  | nil => simp at hit
  | cons it' items ih =>
    simp only [List.map_cons, List.nodup_cons] at h
    rw [kwOf_cons, dget_append]
    rcases List.mem_cons.mp hit with rfl | hit
    · cases hr : r it with
      | none =>
        simp only [dget, Option.none_or]
        rw [dget_eq_none]
        exact fun hm => h.1 (kwOf_keys hm)
      | some v => simp [dget]
    · have hne : it'.attr ≠ it.attr := fun he => h.1 (he ▸ List.mem_map_of_mem hit)
      cases hr : r it' with
      | none => simpa [dget] using ih h.2 hit
      | some v => simpa [dget, hne] using ih h.2 hit

theorem getKwargs_ok_acc {L : Lib C} {strict : Bool} {nss : NsMap} {e : Xml} {kids : List (Kid C F)}
    {items : List (Item C)} (hn : (items.map (·.attr)).Nodup) {kw0 kw : List (Str × Val C F)}
    (hd : ∀ a ∈ kw0.map Prod.fst, a ∉ items.map (·.attr)) :
    getKwargs L strict nss e kids items kw0 = .ok kw ↔
      ∃ r : Item C → Option (Val C F),
        (∀ it ∈ items, tryNs L it strict nss e kids it.nsIds = .ok (r it)) ∧
        kw = kw0 ++ kwOf r items := by
  induction items generalizing kw0 with
  | nil =>
    simp only [getKwargs, Except.ok.injEq, kwOf]
    constructor
    · rintro rfl; exact ⟨fun _ => none, by simp, by simp⟩
    · rintro ⟨r, _, rfl⟩; simp
  | cons it items ih =>
    simp only [List.map_cons, List.nodup_cons] at hn
    have hne : ∀ it' ∈ items, it'.attr ≠ it.attr := fun it' h he => hn.1 (he ▸ List.mem_map_of_mem h)
    have hself : ∀ it' ∈ items, it' ≠ it := fun it' h he => hne it' h (by rw [he])
    simp only [getKwargs]
    cases ht : tryNs L it strict nss e kids it.nsIds with
    | error x =>
      simp only [reduceCtorEq, false_iff]
      rintro ⟨r, hr, _⟩
      have := hr it (by simp)
      rw [ht] at this; cases this
    | ok ov =>
      have hitems : ∀ (r : Item C → Option (Val C F)) (v : Option (Val C F)),
          kwOf (fun i => if i = it then v else r i) items = kwOf r items := by
        intro r v
        have : ∀ l : List (Item C), (∀ i ∈ l, i ≠ it) →
            kwOf (fun i => if i = it then v else r i) l = kwOf r l := by
          intro l
          induction l with
          | nil => intro _; rfl
          | cons i l ih =>
            intro h
            rw [kwOf_cons, kwOf_cons, ih (fun j hj => h j (by simp [hj])), if_neg (h i (by simp))]
        exact this items hself
      cases ov with
      | none =>
        simp only
        rw [ih hn.2 (fun a ha hm => hd a ha (by simp [hm]))]
        constructor
        · rintro ⟨r, hr, rfl⟩
          refine ⟨fun i => if i = it then none else r i, ?_, ?_⟩
          · intro i hi
            rcases List.mem_cons.mp hi with rfl | hi
            · simp [ht]
            · simp only [hself i hi, if_false]; exact hr i hi
          · rw [kwOf_cons, hitems]; simp
        · rintro ⟨r, hr, rfl⟩
          refine ⟨r, fun i hi => hr i (by simp [hi]), ?_⟩
          have : r it = none := by
            have := hr it (by simp); rw [ht] at this; simpa using this.symm
          rw [kwOf_cons, this]; simp
      | some v =>
        simp only
        have hnotin : it.attr ∉ kw0.map Prod.fst := fun hm => hd _ hm (by simp)
        rw [dset_append_of_not_mem hnotin]
        rw [ih hn.2 (by
          intro a ha hm
          simp only [List.map_append, List.map_cons, List.map_nil, List.mem_append,
            List.mem_singleton] at ha
          rcases ha with ha | rfl
          · exact hd a ha (by simp [hm])
          · exact hn.1 hm)]
        constructor
        · rintro ⟨r, hr, rfl⟩
          refine ⟨fun i => if i = it then some v else r i, ?_, ?_⟩
          · intro i hi
            rcases List.mem_cons.mp hi with rfl | hi
            · simp [ht]
            · simp only [hself i hi, if_false]; exact hr i hi
          · rw [kwOf_cons, hitems]; simp
        · rintro ⟨r, hr, rfl⟩
          refine ⟨r, fun i hi => hr i (by simp [hi]), ?_⟩
          have : r it = some v := by
            have := hr it (by simp); rw [ht] at this; simpa using this.symm
          rw [kwOf_cons, this]; simp

/-- The keyword arguments of a successful `_get_kwargs`: one per item that yields
a value. -/
theorem getKwargs_ok {L : Lib C} {strict : Bool} {nss : NsMap} {e : Xml} {kids : List (Kid C F)}
    {items : List (Item C)} (hn : (items.map (·.attr)).Nodup) {kw : List (Str × Val C F)} :
    getKwargs L strict nss e kids items [] = .ok kw ↔
      ∃ r : Item C → Option (Val C F),
        (∀ it ∈ items, tryNs L it strict nss e kids it.nsIds = .ok (r it)) ∧ kw = kwOf r items := by
  rw [getKwargs_ok_acc hn (by simp)]
  simp

theorem getKwargs_error {L : Lib C} {strict : Bool} {nss : NsMap} {e : Xml} {kids : List (Kid C F)}
    {items : List (Item C)} {kw : List (Str × Val C F)} {x : Err}
    (h : getKwargs L strict nss e kids items kw = .error x) :
    ∃ it ∈ items, tryNs L it strict nss e kids it.nsIds = .error x := by
  induction items generalizing kw with
  | nil => simp [getKwargs] at h
  | cons it items ih =>
    simp only [getKwargs] at h
    split at h
    · simp at h; subst h; exact ⟨it, by simp, by assumption⟩
    · obtain ⟨i, hi, he⟩ := ih h; exact ⟨i, by simp [hi], he⟩
    · obtain ⟨i, hi, he⟩ := ih h; exact ⟨i, by simp [hi], he⟩

theorem tryNs_error {L : Lib C} {it : Item C} {strict : Bool} {nss : NsMap} {e : Xml}
    {kids : List (Kid C F)} {ids : List Str} {x : Err}
    (h : tryNs L it strict nss e kids ids = .error x) :
    ∃ id ∈ ids, getKwarg L it strict (nsGet nss id) nss e kids = .error x := by
  induction ids with
  | nil => simp [tryNs] at h
  | cons id ids ih =>
    simp only [tryNs] at h
    split at h
    · simp at h; subst h; exact ⟨id, by simp, by assumption⟩
    · cases h
    · obtain ⟨i, hi, he⟩ := ih h; exact ⟨i, by simp [hi], he⟩

/-- The namespace loop: the first namespace that yields a value wins. -/
theorem tryNs_some {L : Lib C} {it : Item C} {strict : Bool} {nss : NsMap} {e : Xml}
    {kids : List (Kid C F)} {ids : List Str} {v : Val C F} :
    tryNs L it strict nss e kids ids = .ok (some v) ↔
    ∃ pre id post, ids = pre ++ id :: post ∧
      (∀ i ∈ pre, getKwarg L it strict (nsGet nss i) nss e kids = .ok none) ∧
      getKwarg L it strict (nsGet nss id) nss e kids = .ok (some v) := by
  induction ids with
  | nil => simp [tryNs]
  | cons id ids ih =>
    simp only [tryNs]
    constructor
    · intro h
      split at h
      · cases h
      · rename_i w hw
        simp at h; subst h
        exact ⟨[], id, ids, rfl, by simp, hw⟩
      · rename_i hw
        obtain ⟨pre, i, post, rfl, h1, h2⟩ := ih.mp h
        refine ⟨id :: pre, i, post, rfl, ?_, h2⟩
        intro j hj
        rcases List.mem_cons.mp hj with rfl | hj
        · exact hw
        · exact h1 j hj
    · rintro ⟨pre, i, post, he, h1, h2⟩
      cases pre with
      | nil => simp at he; obtain ⟨rfl, rfl⟩ := he; simp [h2]
      | cons p pre =>
        simp at he; obtain ⟨rfl, rfl⟩ := he
        rw [h1 id (by simp)]
        exact ih.mpr ⟨pre, i, post, rfl, fun j hj => h1 j (by simp [hj]), h2⟩

theorem tryNs_none {L : Lib C} {it : Item C} {strict : Bool} {nss : NsMap} {e : Xml}
    {kids : List (Kid C F)} {ids : List Str} :
    tryNs L it strict nss e kids ids = .ok none ↔
    ∀ i ∈ ids, getKwarg L it strict (nsGet nss i) nss e kids = .ok none := by
  induction ids with
  | nil => simp [tryNs]
  | cons id ids ih =>
    simp only [tryNs, List.mem_cons, forall_eq_or_imp]
    split
    · rename_i h; simp [h]
    · rename_i h; simp [h]
    · rename_i h; simp [h, ih]

/-- The namespace loop respects equality of the single lookups. -/
theorem tryNs_congr {L : Lib C} {it : Item C} {s s' : Bool} {nss : NsMap} {e e' : Xml}
    {kids kids' : List (Kid C F)} {ids : List Str}
    (h : ∀ id ∈ ids, getKwarg L it s (nsGet nss id) nss e kids =
      getKwarg L it s' (nsGet nss id) nss e' kids') :
    tryNs L it s nss e kids ids = tryNs L it s' nss e' kids' ids := by
  induction ids with
  | nil => rfl
  | cons id ids ih =>
    simp only [tryNs, h id (by simp), ih (fun i hi => h i (by simp [hi]))]

theorem getKwargs_congr {L : Lib C} {s s' : Bool} {nss : NsMap} {e e' : Xml}
    {kids kids' : List (Kid C F)} {items : List (Item C)}
    (h : ∀ it ∈ items, tryNs L it s nss e kids it.nsIds = tryNs L it s' nss e' kids' it.nsIds) :
    ∀ kw, getKwargs L s nss e kids items kw = getKwargs L s' nss e' kids' items kw := by
  induction items with
  | nil => intro kw; rfl
  | cons it items ih =>
    intro kw
    have ih := ih (fun i hi => h i (by simp [hi]))
    simp only [getKwargs, h it (by simp)]
    split <;> simp [ih]

end Verif
