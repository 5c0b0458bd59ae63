import Verif.Spec.Declare
import Verif.Lemmas.Extend
import Verif.Lemmas.Stable

/-!
# Lemmas about declared attributes
-/

set_option linter.unusedSectionVars false
set_option linter.unusedSimpArgs false

namespace Verif

open Spec

variable {C F : Type} [DecidableEq C] [PyExt F] {L : Lib C} {c : C} {it : Item C}

/-- The change that `asExtra` makes to an object. -/
def toExtra (L : Lib C) (c : C) (it : Item C) (d : C) (attrs : List (Str × Val C F)) : List (Str × Val C F) :=
  if Inherits L d c then
    (if isUnset it.get (attrOf it.attr attrs) then [] else [(it.attr, attrOf it.attr attrs)]) ++
      attrs.filter (fun p => decide (p.1 ≠ it.attr))
  else attrs

theorem asExtra_eq (L : Lib C) (c : C) (it : Item C) : asExtra (F := F) L c it = mapObjects (toExtra L c it) := rfl

theorem toExtra_pos {d : C} (hd : Inherits L d c) (attrs : List (Str × Val C F)) :
    toExtra L c it d attrs = (if isUnset it.get (attrOf it.attr attrs) then [] else [(it.attr, attrOf it.attr attrs)]) ++
      attrs.filter (fun p => decide (p.1 ≠ it.attr)) := if_pos hd

theorem toExtra_neg {d : C} (hd : ¬ Inherits L d c) (attrs : List (Str × Val C F)) :
    toExtra L c it d attrs = attrs := if_neg hd

theorem isUnset_mapObjects (f : C → List (Str × Val C F) → List (Str × Val C F)) (g : GetFn) (v : Val C F) :
    isUnset g (mapObjects f v) = isUnset g v := by
  cases v <;> simp only [mapObjects, isUnset]

theorem attrOf_toExtra {a : Str} (h : a ≠ it.attr) (d : C) (attrs : List (Str × Val C F)) :
    attrOf a (toExtra L c it d attrs) = attrOf a attrs := by
  unfold toExtra
  split
  · unfold attrOf
    rw [dget_append]
    have h1 : dget a (if isUnset it.get ((dget it.attr attrs).getD .none) then ([] : List (Str × Val C F))
        else [(it.attr, (dget it.attr attrs).getD .none)]) = none := by
      split
      · rfl
      · simp [dget, Ne.symm h]
    rw [h1, dget_filter (q := fun b => decide (b ≠ it.attr)) (by simpa using h)]
    rfl
  · rfl

theorem attrOf_toExtra_same {d : C} (hd : Inherits L d c) (attrs : List (Str × Val C F)) :
    attrOf it.attr (toExtra L c it d attrs) = if isUnset it.get (attrOf it.attr attrs) then .none else attrOf it.attr attrs := by
  unfold toExtra
  rw [if_pos hd]
  generalize attrOf it.attr attrs = w
  unfold attrOf
  rw [dget_append]
  have h2 : dget it.attr (attrs.filter fun p => decide (p.1 ≠ it.attr)) = none := by
    rw [dget_eq_none]
    intro h
    obtain ⟨p, hp, he⟩ := List.mem_map.mp h
    have := (List.mem_filter.mp hp).2
    rw [he] at this
    simp at this
  rw [h2]
  split <;> simp [dget]

theorem toExtra_respects (hf : NewAttr L c it) : Respects (F := F) (toExtra L c it) (declared L c it) (L.register c it) := by
  refine ⟨fun d => ?_, fun d => ?_, fun d a l ha => ?_⟩
  · simp only [declared, register_info]; split <;> rfl
  · simp only [declared, register_info]; split <;> rfl
  · by_cases hd : Inherits L d c
    · refine attrOf_toExtra (fun e => ?_) d l
      subst e
      have hb : ((declared L c it).info d).bool = (L.info d).bool := by simp only [declared]; split <;> rfl
      rw [hb] at ha
      rcases ha with ha | ha
      · exact hf.builtin ha
      · exact hf.bool d hd ha
    · unfold toExtra; rw [if_neg hd]

theorem fillSlots_append {L : Lib C} {kw : List (Str × Val C F)} {s t : List (Str × Norm)} {r : List (Str × Val C F)}
    (h : fillSlots L kw t = .ok r) : fillSlots L kw (s ++ t) = (fillSlots L kw s).map (· ++ r) := by
  induction s with
  | nil => simpa [fillSlots, Except.map] using h
  | cons p s ih =>
    obtain ⟨a, n⟩ := p
    simp only [List.cons_append, fillSlots, ih]
    cases normalise L n (kwGet a kw) with
    | error e => rfl
    | ok v => cases fillSlots L kw s <;> rfl

theorem filter_key {a : Str} {kw : List (Str × Val C F)} (hn : (kw.map Prod.fst).Nodup) :
    kw.filter (fun p => decide (p.1 = a)) = (dget a kw).toList.map fun w => (a, w) := by
  induction kw with
  | nil => rfl
  | cons p kw ih =>
    obtain ⟨b, w⟩ := p
    simp only [List.map_cons, List.nodup_cons] at hn
    simp only [List.filter_cons, dget]
    by_cases hb : b = a
    · subst hb
      have : dget b kw = none := by rw [dget_eq_none]; exact hn.1
      simp [ih hn.2, this]
    · simp [hb, ih hn.2]

theorem construct_eq (L : Lib C) (d : C) (ns : Str) (nss : NsMap) (kw : List (Str × Val C F)) :
    construct L d ns nss kw =
      (if (kw.filter fun p => decide (p.1 ∉ specialArgs (L.info d).special ++ (L.info d).slots.map Prod.fst)) ≠ [] ∧
          (L.info d).kwargs = false then .error .typeError
      else match specialInit L (L.info d).special kw with
        | .error e => .error e
        | .ok sp => match fillSlots L kw (L.info d).slots with
          | .error e => .error e
          | .ok sl => .ok (.obj d ns (mergeNs nss)
            ((kw.filter fun p => decide (p.1 ∉ specialArgs (L.info d).special ++ (L.info d).slots.map Prod.fst)) ++ sp ++ sl))) :=
  rfl

/-- Declared or not, the constructor stores the same. -/
theorem construct_declared (hf : NewAttr L c it) {d : C} {kw : List (Str × Val C F)}
    (hkeys : Inherits L d c → ∀ a ∈ kw.map Prod.fst,
      a ∈ specialArgs (L.info d).special ++ (L.info d).slots.map Prod.fst ∨ a = it.attr)
    (hn : (kw.map Prod.fst).Nodup)
    (hval : Inherits L d c → ∃ u, normalise (declared L c it) (storedAs it.get) (kwGet it.attr kw) = .ok u ∧
      (dget it.attr kw = none ∧ isUnset it.get u = true ∨ dget it.attr kw = some u ∧ isUnset it.get u = false))
    (ns : Str) (nss : NsMap) :
    construct (L.register c it) d ns nss (mapKw (toExtra L c it) kw) =
      (construct (declared L c it) d ns nss kw).map (asExtra L c it) := by
  have hR := toExtra_respects (F := F) hf
  have hsame : ∀ names, SameKw (toExtra L c it) names kw (mapKw (toExtra L c it) kw) :=
    fun names a _ => kwGet_mapKw a kw
  have hs := specialInit_mapObjects hR (L.info d).special (hsame Spec.builtin)
  have hsl := fillSlots_mapObjects hR (l := (L.info d).slots) (hsame _)
  rw [construct_eq, construct_eq, register_info]
  by_cases hd : Inherits L d c
  · have hinfo : (declared L c it).info d =
        { L.info d with slots := (L.info d).slots ++ [(it.attr, storedAs it.get)] } := if_pos hd
    obtain ⟨u, hu, hcase⟩ := hval hd
    have hlast : fillSlots (declared L c it) kw [(it.attr, storedAs it.get)] = .ok [(it.attr, u)] := by
      simp only [fillSlots, hu]
    have hk := hf.known d hd
    have hex : (mapKw (toExtra L c it) kw).filter
        (fun p => decide (p.1 ∉ specialArgs (L.info d).special ++ (L.info d).slots.map Prod.fst)) =
        (dget it.attr kw).toList.map fun w => (it.attr, mapObjects (toExtra L c it) w) := by
      rw [mapKw_filter (toExtra L c it) (fun a => decide (a ∉ specialArgs (L.info d).special ++ (L.info d).slots.map Prod.fst))]
      have : kw.filter (fun p => decide (p.1 ∉ specialArgs (L.info d).special ++ (L.info d).slots.map Prod.fst)) =
          kw.filter fun p => decide (p.1 = it.attr) := by
        refine List.filter_congr fun p hp => ?_
        rw [decide_eq_decide]
        constructor
        · intro h
          rcases hkeys hd p.1 (List.mem_map_of_mem (f := Prod.fst) hp) with h' | h'
          · exact absurd h' h
          · exact h'
        · intro h; rw [h]; exact hk
      rw [this, filter_key hn, mapKw, List.map_map]
      rfl
    have hex2 : kw.filter (fun p => decide (p.1 ∉ specialArgs (L.info d).special ++
        ((L.info d).slots ++ [(it.attr, storedAs it.get)]).map Prod.fst)) = [] := by
      rw [List.filter_eq_nil_iff]
      intro p hp
      rcases hkeys hd p.1 (List.mem_map_of_mem (f := Prod.fst) hp) with h' | h'
      · have : p.1 ∈ specialArgs (L.info d).special ++ ((L.info d).slots ++ [(it.attr, storedAs it.get)]).map Prod.fst := by
          rw [List.map_append, ← List.append_assoc]; exact List.mem_append.mpr (.inl h')
        simp only [decide_eq_true_eq]; exact fun h => h this
      · have : p.1 ∈ specialArgs (L.info d).special ++ ((L.info d).slots ++ [(it.attr, storedAs it.get)]).map Prod.fst := by
          rw [h']; simp
        simp only [decide_eq_true_eq]; exact fun h => h this
    rw [hinfo]
    simp only [hex, hex2, hf.kwargs d hd, hs, hsl, fillSlots_append hlast]
    simp only [Bool.true_eq_false, and_false, if_false]
    cases h1 : specialInit (declared L c it) (L.info d).special kw with
    | error e => rfl
    | ok sp =>
      simp only [Except.map]
      cases h2 : fillSlots (declared L c it) kw (L.info d).slots with
      | error e => rfl
      | ok sl =>
        simp only [Except.map]
        congr 1
        rw [asExtra_eq, mapObjects_obj]
        congr 1
        rw [List.mem_append, not_or] at hk
        have e1 : (mapKw (toExtra L c it) sp).filter (fun p => decide (p.1 ≠ it.attr)) = mapKw (toExtra L c it) sp :=
          filter_self_keys (keep := fun a => decide (a ≠ it.attr)) (by
            intro a ha
            simp only [decide_eq_true_eq]
            rintro rfl
            exact hk.1 (specialInit_keys h1 _ (by simpa [mapKw] using ha)))
        have e2 : (mapKw (toExtra L c it) sl).filter (fun p => decide (p.1 ≠ it.attr)) = mapKw (toExtra L c it) sl :=
          filter_self_keys (keep := fun a => decide (a ≠ it.attr)) (by
            intro a ha
            simp only [decide_eq_true_eq]
            rintro rfl
            refine hk.2 ?_
            rw [← fillSlots_keys h2]
            simpa [mapKw] using ha)
        have e3 : dget it.attr sp = none := by
          rw [dget_eq_none]; exact fun hm => hk.1 (specialInit_keys h1 _ hm)
        have e4 : dget it.attr sl = none := by
          rw [dget_eq_none, fillSlots_keys h2]; exact hk.2
        have e5 : attrOf it.attr (([] ++ sp ++ (sl ++ [(it.attr, u)])).map
            fun p : Str × Val C F => (p.1, mapObjects (toExtra L c it) p.2)) = mapObjects (toExtra L c it) u := by
          rw [attrOf_mapObjects]
          congr 1
          unfold attrOf
          simp [dget_append, e3, e4, dget]
        have e6 : (([] ++ sp ++ (sl ++ [(it.attr, u)])).map fun p : Str × Val C F => (p.1, mapObjects (toExtra L c it) p.2)).filter
            (fun p => decide (p.1 ≠ it.attr)) = mapKw (toExtra L c it) sp ++ mapKw (toExtra L c it) sl := by
          simp only [mapKw] at e1 e2
          simp only [List.nil_append, List.map_append, List.filter_append, e1, e2, mapKw]
          simp
        rw [toExtra_pos hd, e5, e6, isUnset_mapObjects]
        rcases hcase with ⟨h3, h4⟩ | ⟨h3, h4⟩
        · simp [h3, h4]
        · simp [h3, h4]
  · have hinfo : (declared L c it).info d = L.info d := if_neg hd
    have hex : (mapKw (toExtra L c it) kw).filter
        (fun p => decide (p.1 ∉ specialArgs (L.info d).special ++ (L.info d).slots.map Prod.fst)) =
        mapKw (toExtra L c it) (kw.filter fun p => decide (p.1 ∉ specialArgs (L.info d).special ++ (L.info d).slots.map Prod.fst)) :=
      mapKw_filter (toExtra L c it) (fun a => decide (a ∉ specialArgs (L.info d).special ++ (L.info d).slots.map Prod.fst)) kw
    rw [hinfo, hex, hs, hsl]
    simp only [mapKw, ne_eq, List.map_eq_nil_iff]
    by_cases hc : ¬ kw.filter (fun p => decide (p.1 ∉ specialArgs (L.info d).special ++ (L.info d).slots.map Prod.fst)) = [] ∧
        (L.info d).kwargs = false
    · rw [if_pos hc, if_pos hc]; rfl
    · rw [if_neg hc, if_neg hc]
      cases h1 : specialInit (declared L c it) (L.info d).special kw with
      | error e => rfl
      | ok sp =>
        simp only [Except.map]
        cases h2 : fillSlots (declared L c it) kw (L.info d).slots with
        | error e => rfl
        | ok sl =>
          simp only [Except.map]
          rw [asExtra_eq, mapObjects_obj]
          rw [toExtra_neg hd]
          simp only [List.map_append, mapKw]

/-! ## Reading -/

theorem cleanString_again {s t : Str} (h : cleanString (some s) = some t) : cleanString (some t) = some t ∧ t ≠ [] := by
  simp only [cleanString] at h
  split at h
  · cases h
  · split at h
    · cases h
    · rename_i h1 h2
      simp only [Option.some.injEq] at h
      subst h
      have h2 : (strip s).isEmpty = false := by simpa using h2
      refine ⟨by simp only [cleanString, strip_idem, h2, Bool.false_eq_true, if_false], fun e => ?_⟩
      rw [e] at h2; simp at h2

theorem stripped_again {t : Option Str} {s : Str} (h : strippedText t = some s) :
    cleanString (some s) = some s ∧ s ≠ [] := by
  unfold strippedText at h
  cases t with
  | none => cases h
  | some r => exact cleanString_again h

/-- What is read is stored as it is. -/
theorem getKwarg_stored {L : Lib C} {i : Item C} {strict : Bool} {ns : Str} {nss : NsMap} {e : Xml} {w : Val C F}
    (h : getKwarg L i strict ns nss e (kidsOf (parse L strict) e.kids) = .ok (some w)) (L' : Lib C) :
    normalise L' (storedAs i.get) w = .ok w ∧ isUnset i.get w = false := by
  unfold getKwarg at h
  cases hg : i.get <;> simp only [hg, storedAs] at h ⊢
  case nodeText =>
    simp only [Except.ok.injEq, Option.map_eq_some_iff] at h
    obtain ⟨s, hs, rfl⟩ := h
    have := stripped_again hs
    simp [normalise, this.1, isUnset]
  case subText =>
    simp only [Except.ok.injEq, Option.map_eq_some_iff] at h
    obtain ⟨s, hs, rfl⟩ := h
    unfold getSubText at hs
    split at hs
    · cases hs
    · have := stripped_again hs
      simp [normalise, this.1, isUnset]
  case attrText =>
    simp only [Except.ok.injEq, Option.map_eq_some_iff] at h
    obtain ⟨s, hs, rfl⟩ := h
    unfold getAttrText at hs
    split at hs
    · cases hs
    · split at hs
      · cases hs
      · rename_i hne
        cases hs
        simpa [normalise, isUnset] using hne
  case xmlSub =>
    obtain ⟨k, hk, d, _, _, hr⟩ := getXmlSub_some h
    obtain ⟨x, _, rfl⟩ := List.mem_map.mp hk
    simp only [parse_eq, parseStep] at hr
    split at hr
    · cases hr
    · obtain ⟨_, _, _, _, _, _, rfl⟩ := construct_ok hr
      simp [normalise, isUnset]
  case xmlSubList =>
    split at h
    · cases h
    · cases h; simp [normalise, isUnset]
  case subBool =>
    split at h
    · obtain ⟨a, _, rfl⟩ := wrap_some h; simp [normalise, isUnset]
    · cases h
  case subEnum =>
    split at h
    · obtain ⟨a, _, rfl⟩ := wrap_some h; simp [normalise, isUnset]
    · cases h
  case attrEnum =>
    split at h
    · obtain ⟨a, _, rfl⟩ := wrap_some h; simp [normalise, isUnset]
    · cases h
  all_goals
    obtain ⟨a, _, rfl⟩ := wrap_some h
    simp [normalise, isUnset]

theorem tryNs_stored {L : Lib C} {i : Item C} {strict : Bool} {nss : NsMap} {e : Xml} {ids : List Str} {w : Val C F}
    (h : tryNs L i strict nss e (kidsOf (parse L strict) e.kids) ids = .ok (some w)) (L' : Lib C) :
    normalise L' (storedAs i.get) w = .ok w ∧ isUnset i.get w = false := by
  induction ids with
  | nil => cases h
  | cons j ids ih =>
    simp only [tryNs] at h
    split at h
    · cases h
    · cases h; rename_i h1; exact getKwarg_stored h1 L'
    · exact ih h

/-- A list is always read, if the item has a namespace. -/
theorem tryNs_list {L : Lib C} {i : Item C} {strict : Bool} {nss : NsMap} {e : Xml} {kids : List (Kid C F)} {ids : List Str}
    (hi : ids ≠ []) (hg : i.get = .xmlSubList) : tryNs L i strict nss e kids ids ≠ .ok none := by
  cases ids with
  | nil => exact absurd rfl hi
  | cons j ids =>
    simp only [tryNs, getKwarg, hg]
    cases getXmlSubList L kids (nsGet nss j) nss i.classes <;> simp

theorem normalise_none (L : Lib C) {g : GetFn} (hg : g ≠ .xmlSubList) :
    ∃ u, normalise (F := F) L (storedAs g) .none = .ok u ∧ isUnset g u = true := by
  cases g <;> first | exact absurd rfl hg | exact ⟨_, rfl, rfl⟩

theorem getKwargs_keys {L : Lib C} {strict : Bool} {nss : NsMap} {e : Xml} {kids : List (Kid C F)}
    {items : List (Item C)} {kw0 kw : List (Str × Val C F)} (h : getKwargs L strict nss e kids items kw0 = .ok kw) :
    (∀ a ∈ kw.map Prod.fst, a ∈ kw0.map Prod.fst ∨ a ∈ items.map (·.attr)) ∧
      ((kw0.map Prod.fst).Nodup → (kw.map Prod.fst).Nodup) := by
  induction items generalizing kw0 with
  | nil =>
    simp only [getKwargs, Except.ok.injEq] at h
    subst h
    exact ⟨fun a ha => .inl ha, id⟩
  | cons i items ih =>
    simp only [getKwargs] at h
    split at h
    · cases h
    · have := ih h
      refine ⟨fun a ha => ?_, this.2⟩
      rcases this.1 a ha with h | h
      · exact .inl h
      · exact .inr (by simp only [List.map_cons, List.mem_cons]; exact .inr h)
    · have := ih h
      refine ⟨fun a ha => ?_, fun hn => this.2 (dset_nodup hn)⟩
      rcases this.1 a ha with h | h
      · rw [keys_dset] at h
        split at h
        · exact .inl h
        · rcases List.mem_append.mp h with h | h
          · exact .inl h
          · rw [List.mem_singleton.mp h]; exact .inr (by simp)
      · exact .inr (by simp only [List.map_cons, List.mem_cons]; exact .inr h)

/-- Reading is the same whether the attribute is declared or not. -/
theorem parse_declared (hf : NewAttr L c it) (hi : it.nsIds ≠ []) (hR : ∀ d, Inherits L d c → ReadOk L d) {strict : Bool}
    {nss : NsMap} (hm : mergeNs nss = nss) (e : Xml) : ∀ (d : C) (ns : Str),
      parse (F := F) (L.register c it) strict e d ns nss = (parse (declared L c it) strict e d ns nss).map (asExtra L c it) := by
  induction e using Xml.ind with
  | h t as x ks ih =>
    intro d ns
    rw [parse_eq, parse_eq]
    simp only [parseStep, hm]
    have htag : ∀ d, ((L.register c it).info d).tag = ((declared L c it).info d).tag := by
      intro d; simp only [declared, register_info]; split <;> rfl
    have hitems : (declared L c it).itemsOf d = (L.register c it).itemsOf d := by
      simp only [Lib.itemsOf, declared, Lib.register]
      split <;> rfl
    have hk : KidsFollow (F := F) True (toExtra L c it) (declared L c it) (L.register c it) strict nss (Xml.mk t as x ks).kids :=
      fun k hk d ns => .of_eq (ih k hk d ns)
    have h := (getKwargs_follows htag hk (fun _ => true) (items := (L.register c it).itemsOf d) (by simp) []).eq
    rw [List.filter_eq_self.mpr (by simp)] at h
    rw [show keepKw (fun _ => true) (toExtra L c it) ([] : List (Str × Val C F)) = [] from rfl] at h
    rw [h, hitems]
    cases h1 : getKwargs (F := F) (declared L c it) strict nss (Xml.mk t as x ks)
        (kidsOf (parse (declared L c it) strict) (Xml.mk t as x ks).kids) ((L.register c it).itemsOf d) [] with
    | error y => rfl
    | ok kw =>
      simp only [Except.map]
      rw [show keepKw (fun _ => true) (toExtra L c it) kw = mapKw (toExtra L c it) kw from by
        rw [keepKw, List.filter_eq_self.mpr (by simp)]]
      have hkeys := getKwargs_keys h1
      refine construct_declared hf ?_ (hkeys.2 (by simp)) ?_ ns nss
      · intro hd a ha
        rcases hkeys.1 a ha with ha | ha
        · simp at ha
        · obtain ⟨i, hi, rfl⟩ := List.mem_map.mp ha
          rcases mem_itemsOf_register.mp hi with hi | ⟨rfl, _⟩
          · exact .inl ((hR d hd).attr_known hi)
          · exact .inr rfl
      · intro hd
        have hit : it ∈ (L.register c it).itemsOf d := mem_itemsOf_register.mpr (.inr ⟨rfl, hd⟩)
        obtain ⟨r, hr⟩ := getKwargs_each h1 it hit
        have hg := getKwargs_dget hr (items := (L.register c it).itemsOf d) (by
          intro i hi ha
          rcases mem_itemsOf_register.mp hi with hi | ⟨hi, _⟩
          · exact absurd ha (hf.items d hd i hi)
          · exact hi) (by intro _; rfl) (.inl hit) h1
        cases r with
        | none =>
          have : it.get ≠ .xmlSubList := fun h => tryNs_list hi h hr
          obtain ⟨u, h2, h3⟩ := normalise_none (F := F) (declared L c it) this
          exact ⟨u, by rw [kwGet, hg]; exact h2, .inl ⟨hg, h3⟩⟩
        | some w =>
          have := tryNs_stored hr (declared L c it)
          exact ⟨w, by rw [kwGet, hg]; exact this.1, .inr ⟨hg, this.2⟩⟩

/-! ## Writing -/

theorem val_mapObjects (f : C → List (Str × Val C F) → List (Str × Val C F)) (d : Dflt) :
    mapObjects f (d.val : Val C F) = d.val := by
  cases d <;> simp only [Dflt.val, mapObjects]

theorem eqDflt_mapObjects (f : C → List (Str × Val C F) → List (Str × Val C F)) (v : Val C F) (d : Dflt) :
    eqDflt (mapObjects f v) d = eqDflt v d := by
  cases v <;> cases d <;> simp only [mapObjects, eqDflt]

theorem getValue_mapObjects (f : C → List (Str × Val C F) → List (Str × Val C F)) (v : Val C F) (vb : Verbosity) (d : Dflt) :
    getValue (mapObjects f v) vb d = mapObjects f (getValue v vb d) := by
  unfold getValue
  rw [notNone_mapObjects, eqDflt_mapObjects]
  split
  · rw [val_mapObjects]
  · split
    · simp only [mapObjects]
    · rfl

/-- The view of a value whose objects are changed. -/
def SView.change (f : C → List (Str × Val C F) → List (Str × Val C F)) (s : SView C F) : SView C F :=
  { s with v := mapObjects f s.v }

theorem setElement_change (f : C → List (Str × Val C F) → List (Str × Val C F)) (i : Item C) (ns : Str) (nss : NsMap) (o : Opts)
    (s : SView C F) (el : Xml) : setElement i ns nss o (s.change f) el = setElement i ns nss o s el := by
  unfold setElement
  simp only [SView.change, getValue_mapObjects]
  generalize getValue s.v o.verbosity i.dflt = w
  cases i.set <;> simp only
  case nodeText => cases w <;> simp only [mapObjects, setNodeText]
  case subText => cases w <;> simp only [mapObjects, setSubText]
  case attrText => cases w <;> simp only [mapObjects, setAttrText]
  case subBool => cases w <;> simp only [mapObjects, setSubBool]
  case subInt => cases w <;> simp only [mapObjects, setSubNum, pyStr]
  case attrInt => cases w <;> simp only [mapObjects, setAttrNum, pyStr]
  case subFloat => cases w <;> simp only [mapObjects, setSubNum, pyStr]
  case attrFloat => cases w <;> simp only [mapObjects, setAttrNum, pyStr]
  case subEnum => cases w <;> simp only [mapObjects, setSubEnum]
  case attrEnum => cases w <;> simp only [mapObjects, setAttrEnum]
  case subDt => cases w <;> simp only [mapObjects, setSubDt]
  case subDtList => cases w <;> simp only [mapObjects, setSubDtList]
  case coordsList => cases w <;> simp only [mapObjects, setCoordsList]
  case coordinates => cases s.v <;> simp only [mapObjects, setCoordinates]
  case xmlSub => rfl
  case xmlSubList => simp only [setXmlSubList]; cases s.v <;> simp only [mapObjects]

theorem sview_change {f : C → List (Str × Val C F) → List (Str × Val C F)} {L L' : Lib C} (hR : Respects f L L') {o : Opts}
    {w : Val C F} (h : ser L' o (mapObjects f w) = ser L o w)
    (h2 : ∀ l, w = .list l → ∀ x ∈ l, ser L' o (mapObjects f x) = ser L o x) :
    sview L' o (mapObjects f w) = (sview L o w).change f := by
  simp only [sview, SView.change, h, truthy_mapObjects hR]
  congr 1
  cases w <;> simp only [mapObjects, serMembers]
  rename_i l
  rw [serList_eq, serList_eq, mapObjectsList_eq, List.map_map]
  refine List.map_congr_left fun x hx => ?_
  simp only [Function.comp, truthy_mapObjects hR, h2 l rfl x hx]

theorem setAll_congr {ns : Str} {nss : NsMap} {o : Opts} {sp : Special} {A B : List (Str × SView C F)} {items : List (Item C)}
    (h : ∀ i ∈ items, ∀ el, setElement i ns nss o (getattr sp A i.attr) el = setElement i ns nss o (getattr sp B i.attr) el) (el : Xml) :
    setAll ns nss o sp A items el = setAll ns nss o sp B items el := by
  induction items generalizing el with
  | nil => rfl
  | cons i items ih =>
    simp only [setAll, h i (by simp) el, ih (fun j hj => h j (by simp [hj]))]

theorem propOf_change {f : C → List (Str × Val C F) → List (Str × Val C F)} {sp : Special} {attrs attrs' : List (Str × Val C F)} {a : Str}
    (h : attrOf a attrs' = mapObjects f (attrOf a attrs))
    (ht : attrOf (s% "track_items") attrs' = mapObjects f (attrOf (s% "track_items") attrs)) :
    propOf sp attrs' a = mapObjects f (propOf sp attrs a) := by
  have hi : itemsOf' attrs' = itemsOf' attrs := by
    unfold itemsOf'
    rw [ht]
    cases attrOf (s% "track_items") attrs <;> simp only [mapObjects]
  unfold propOf
  rw [hi, h]
  split
  · simp only [mapObjects]
  · split
    · simp only [mapObjects]
    · split
      · simp only [mapObjects]
      · rfl

/-- Writing is the same whether the attribute is declared or not. -/
theorem ser_declared (hf : NewAttr L c it) (hs : it.get = .attrText → it.set = .attrText ∧ it.dflt = .none) (o : Opts) (v : Val C F) :
    ser (L.register c it) o (asExtra L c it v) = ser (declared L c it) o v := by
  rw [asExtra_eq]
  have hR := toExtra_respects (F := F) hf
  induction v using Val.objInd with
  | hother v hv => cases v <;> first | exact absurd rfl (hv _ _ _ _) | simp only [mapObjects, ser]
  | hobj d ns nss attrs ih1 ih2 =>
    rw [mapObjects_obj, ser_obj, ser_obj]
    have hview : ∀ a, sview (L.register c it) o (mapObjects (toExtra L c it) (attrOf a attrs)) =
        (sview (declared L c it) o (attrOf a attrs)).change (toExtra L c it) := by
      intro a
      by_cases hn : attrOf a attrs = .none
      · rw [hn]
        exact sview_change hR (by simp only [mapObjects, ser]) (by intro l h; cases h)
      · have hm := attrOf_mem (rfl : attrOf a attrs = attrOf a attrs) hn
        exact sview_change hR (ih1 a _ hm) fun l hl x hx => ih2 a l (hl ▸ hm) x hx
    have hget : ∀ a, (Inherits L d c → a ≠ it.attr) → ∀ sp,
        getattr sp (serAttrs (L.register c it) o (toExtra L c it d (attrs.map fun p => (p.1, mapObjects (toExtra L c it) p.2)))) a =
        (getattr sp (serAttrs (declared L c it) o attrs) a).change (toExtra L c it) := by
      intro a ha sp
      have h1 : ∀ b, (Inherits L d c → b ≠ it.attr) →
          attrOf b (toExtra L c it d (attrs.map fun p => (p.1, mapObjects (toExtra L c it) p.2))) =
          mapObjects (toExtra L c it) (attrOf b attrs) := by
        intro b hb
        by_cases hd : Inherits L d c
        · rw [attrOf_toExtra (hb hd), attrOf_mapObjects]
        · rw [toExtra_neg hd, attrOf_mapObjects]
      have ht : (Inherits L d c → s% "track_items" ≠ it.attr) := fun _ e => hf.builtin (by rw [← e]; decide)
      rw [getattr_serAttrs, getattr_serAttrs, propOf_change (h1 a ha) (h1 _ ht)]
      split
      · simp only [SView.prop, SView.change]
      · rename_i hsp
        have hp : propOf sp attrs a = attrOf a attrs := by
          unfold propOf
          rw [if_neg (fun h => hsp ⟨h.1, .inl h.2⟩), if_neg (fun h => hsp ⟨h.1, .inr (.inl h.2)⟩),
            if_neg (fun h => hsp ⟨h.1, .inr (.inr h.2)⟩)]
        rw [hp]
        exact hview a
    have key : ∀ el, setAll ns nss o (L.info d).special
          (serAttrs (L.register c it) o (toExtra L c it d (attrs.map fun p => (p.1, mapObjects (toExtra L c it) p.2))))
          ((L.register c it).itemsOf d) el =
        setAll ns nss o (L.info d).special (serAttrs (declared L c it) o attrs) ((L.register c it).itemsOf d) el := by
      intro el
      refine setAll_congr (fun i hi el => ?_) el
      by_cases hia : Inherits L d c ∧ i.attr = it.attr
      · have hii : i = it := by
          rcases mem_itemsOf_register.mp hi with hi | ⟨hi, _⟩
          · exact absurd hia.2 (hf.items d hia.1 i hi)
          · exact hi
        rw [hii, getattr_plain hf.builtin, getattr_plain hf.builtin, attrOf_toExtra_same hia.1, attrOf_mapObjects,
          isUnset_mapObjects]
        by_cases hu : isUnset it.get (attrOf it.attr attrs) = true
        · rw [if_pos hu]
          cases hw : attrOf it.attr attrs with
          | none =>
            have := hview it.attr
            rw [hw] at this
            simp only [mapObjects] at this
            rw [this, setElement_change]
          | str s =>
            rw [hw] at hu
            simp only [isUnset, Bool.and_eq_true, decide_eq_true_eq, List.isEmpty_iff] at hu
            obtain ⟨h1, h2⟩ := hs hu.1
            rw [hu.2]
            simp only [setElement, h1, h2, sview]
            unfold getValue
            simp only [ne_eq, not_true_eq_false, false_and, and_false, if_false]
            split <;> split <;> simp [setAttrText]
          | _ => rw [hw] at hu; simp [isUnset] at hu
        · rw [if_neg hu, hview it.attr, setElement_change]
      · rw [hget _ (fun hd e => hia ⟨hd, e⟩), setElement_change]
    have hsp : ((declared L c it).info d).special = (L.info d).special := by simp only [declared]; split <;> rfl
    have htag : ((declared L c it).info d).tag = (L.info d).tag := by simp only [declared]; split <;> rfl
    have hitems : (declared L c it).itemsOf d = (L.register c it).itemsOf d := by
      simp only [Lib.itemsOf, declared, Lib.register]
      split <;> rfl
    simp only [serStep]
    rw [register_info, hsp, htag, hitems]
    by_cases hk : (L.info d).special = .kml
    · rw [if_pos hk, if_pos hk]
      have hfe : Inherits L d c → s% "features" ≠ it.attr := fun _ e => hf.builtin (by rw [← e]; decide)
      rw [hget _ hfe]
      simp only [setXmlSubList, SView.change]
      cases (getattr (L.info d).special (serAttrs (declared L c it) o attrs) (s% "features")).v <;> simp only [mapObjects]
    · rw [if_neg hk, if_neg hk]
      exact key _

/-! ## The conditions on the declared library -/

/-- The new item is inserted among the others. -/
theorem itemsOf_insert {d : C} (hn : (L.info d).mro.Nodup) (hd : Inherits L d c) :
    ∃ pre post, L.itemsOf d = pre ++ post ∧ (L.register c it).itemsOf d = pre ++ it :: post := by
  obtain ⟨sub, anc, h⟩ := List.append_of_mem hd
  rw [h, List.nodup_append] at hn
  obtain ⟨_, h2, h3⟩ := hn
  rw [List.nodup_cons] at h2
  have h4 : c ∉ sub := fun hc => h3 c hc c (by simp) rfl
  have hne : ∀ l : List C, c ∉ l → l.flatMap (fun d => (dget d (L.reg.register c it)).getD []) =
      l.flatMap fun d => (dget d L.reg).getD [] := by
    intro l hl
    rw [List.flatMap_def, List.flatMap_def]
    congr 1
    refine List.map_congr_left fun a ha => ?_
    rw [dget_register, if_neg (fun e => hl (by rw [e]; exact ha))]
    simp
  refine ⟨(anc.reverse.flatMap fun d => (dget d L.reg).getD []) ++ (dget c L.reg).getD [],
    sub.reverse.flatMap fun d => (dget d L.reg).getD [], ?_, ?_⟩
  · simp only [Lib.itemsOf, get_flatMap, h, List.reverse_append, List.reverse_cons, List.flatMap_append,
      List.flatMap_cons, List.flatMap_nil, List.append_nil]
  · simp only [Lib.itemsOf, Lib.register, get_flatMap, h, List.reverse_append, List.reverse_cons, List.flatMap_append,
      List.flatMap_cons, List.flatMap_nil, List.append_nil]
    rw [hne _ (by simpa using h2.1), hne _ (by simpa using h4), dget_register, if_pos rfl]
    simp

theorem itemsOf_declared (L : Lib C) (c : C) (it : Item C) (d : C) :
    (declared L c it).itemsOf d = (L.register c it).itemsOf d := by
  simp only [Lib.itemsOf, declared, Lib.register]
  split <;> rfl

theorem info_declared {d : C} (hd : Inherits L d c) : (declared L c it).info d =
    { L.info d with slots := (L.info d).slots ++ [(it.attr, storedAs it.get)] } := if_pos hd

theorem info_declared_other {d : C} (hd : ¬ Inherits L d c) : (declared L c it).info d = L.info d := if_neg hd

theorem special_declared (L : Lib C) (c : C) (it : Item C) (d : C) :
    ((declared L c it).info d).special = (L.info d).special := by simp only [declared]; split <;> rfl

theorem tag_declared (L : Lib C) (c : C) (it : Item C) (d : C) :
    ((declared L c it).info d).tag = (L.info d).tag := by simp only [declared]; split <;> rfl

theorem localNames_declared (L : Lib C) (c : C) (it i : Item C) : localNames (declared L c it) i = localNames L i := by
  unfold localNames
  split <;> try rfl
  all_goals
    refine congrArg (fun f => List.filterMap f i.classes) (funext fun t => ?_)
    cases t <;> simp only [tag_declared]

theorem items_same {d : C} (hd : ¬ Inherits L d c) : (declared L c it).itemsOf d = L.itemsOf d := by
  rw [itemsOf_declared, itemsOf_register_other L c it hd]

theorem mem_items {d : C} {i : Item C} :
    i ∈ (declared L c it).itemsOf d ↔ i ∈ L.itemsOf d ∨ (i = it ∧ Inherits L d c) := by
  rw [itemsOf_declared, mem_itemsOf_register]

theorem nodup_insert {α : Type} {pre post : List α} {a : α} (h : (pre ++ post).Nodup) (ha : a ∉ pre ++ post) :
    (pre ++ a :: post).Nodup := by
  rw [List.nodup_append] at h ⊢
  rw [List.mem_append, not_or] at ha
  refine ⟨h.1, List.nodup_cons.mpr ⟨ha.2, h.2.1⟩, fun x hx y hy => ?_⟩
  rcases List.mem_cons.mp hy with rfl | hy
  · rintro rfl; exact ha.1 hx
  · exact h.2.2 x hx y hy

theorem readOk_declared (hf : NewAttr L c it) (hs : Suitable L c it) {d : C} (hm : (L.info d).mro.Nodup) (hR : ReadOk L d) :
    ReadOk (declared L c it) d := by
  by_cases hd : Inherits L d c
  · obtain ⟨pre, post, h1, h2⟩ := itemsOf_insert (it := it) hm hd
    refine ⟨?_, ?_, ?_, ?_, ?_⟩
    · rw [itemsOf_declared, h2, List.map_append, List.map_cons]
      have h3 := hR.attrs
      rw [h1, List.map_append] at h3
      refine nodup_insert h3 fun hmem => ?_
      rw [← List.map_append, ← h1] at hmem
      obtain ⟨i, hi, he⟩ := List.mem_map.mp hmem
      exact hf.items d hd i hi he
    · rw [info_declared hd, List.map_append, ← List.append_assoc, List.nodup_append]
      refine ⟨hR.known, by simp, fun x hx y hy => ?_⟩
      simp only [List.map_cons, List.map_nil, List.mem_singleton] at hy
      rintro rfl
      exact hf.known d hd (hy ▸ hx)
    · intro i hi
      rcases mem_items.mp hi with hi | ⟨rfl, _⟩
      · exact hR.classes i hi
      · exact hs.classes
    · intro i hi
      rw [info_declared hd]
      rcases mem_items.mp hi with hi | ⟨rfl, _⟩
      · have := hR.slots i hi
        simp only [slotOk, List.any_append, Bool.or_eq_true] at this ⊢
        rcases this with h | h
        · exact .inl (.inl h)
        · exact .inr h
      · have hn : normOk i.get (storedAs i.get) = true := by
          have := hs.get
          cases hg : i.get <;> simp_all [normOk, storedAs]
        simp [slotOk, hn]
    · intro hsp i hi ha
      rw [special_declared] at hsp
      rcases mem_items.mp hi with hi | ⟨rfl, _⟩
      · exact hR.schema hsp i hi ha
      · exact absurd (by rw [ha]; decide) hf.builtin
  · refine ⟨?_, ?_, ?_, ?_, ?_⟩
    · rw [items_same hd]; exact hR.attrs
    · rw [info_declared_other hd]; exact hR.known
    · rw [items_same hd]; exact hR.classes
    · rw [items_same hd, info_declared_other hd]; exact hR.slots
    · rw [items_same hd, info_declared_other hd]; exact hR.schema

theorem filter_insert {α : Type} (p : α → Bool) (pre post : List α) (a : α) :
    (pre ++ a :: post).filter p = if p a then pre.filter p ++ a :: post.filter p else (pre ++ post).filter p := by
  by_cases h : p a = true <;> simp [List.filter_append, List.filter_cons, h]

theorem writeOk_declared (hf : NewAttr L c it) (hs : Suitable L c it) {d : C} (hm : (L.info d).mro.Nodup) (hW : WriteOk L d) :
    WriteOk (declared L c it) d := by
  have hitem : ∀ i, ItemWriteOk L d i → ItemWriteOk (declared L c it) d i := fun i h =>
    ⟨h.set, h.dflt, by rw [special_declared]; exact h.whens, by rw [special_declared]; exact h.coords⟩
  by_cases hd : Inherits L d c
  · obtain ⟨pre, post, h1, h2⟩ := itemsOf_insert (it := it) hm hd
    refine ⟨?_, ?_, ?_, ?_⟩
    · intro i hi
      rcases mem_items.mp hi with hi | ⟨rfl, _⟩
      · exact hitem i (hW.item i hi)
      · refine hitem i ⟨hs.set, hs.dflt, ?_, ?_⟩
        · refine ⟨fun h => absurd h hs.get.2.2, fun h => absurd (by rw [h.2]; decide) hf.builtin⟩
        · refine ⟨fun h => absurd h hs.get.2.1, fun h => ?_⟩
          rcases h.2 with h | h <;> exact absurd (by rw [h]; decide) hf.builtin
    · have h3 := hW.text
      rw [itemsOf_declared, h2]
      rw [h1] at h3
      simp only [oneText, decide_eq_true_eq] at h3 ⊢
      rw [filter_insert]
      split
      · rename_i hp
        simp only [decide_eq_true_eq] at hp
        have h0 : ∀ i ∈ pre ++ post, ¬ place i.get = .text := fun i hi h => (hs.apart d hd i (h1 ▸ hi)).2.2 ⟨hp, h⟩
        have e1 : pre.filter (fun i => decide (place i.get = .text)) = [] := by
          rw [List.filter_eq_nil_iff]; intro i hi; simpa using h0 i (List.mem_append.mpr (.inl hi))
        have e2 : post.filter (fun i => decide (place i.get = .text)) = [] := by
          rw [List.filter_eq_nil_iff]; intro i hi; simpa using h0 i (List.mem_append.mpr (.inr hi))
        simp [e1, e2]
      · exact h3
    · have h3 := hW.attrs
      rw [itemsOf_declared, h2]
      rw [h1] at h3
      simp only [attrNodes] at h3 ⊢
      rw [filter_insert]
      split
      · rename_i hp
        simp only [decide_eq_true_eq] at hp
        rw [List.filter_append, List.map_append] at h3
        rw [List.map_append, List.map_cons]
        refine nodup_insert h3 fun hmem => ?_
        rw [← List.map_append, ← List.filter_append, ← h1] at hmem
        obtain ⟨i, hi, he⟩ := List.mem_map.mp hmem
        have hi' := List.mem_filter.mp hi
        exact (hs.apart d hd i hi'.1).2.1 hp (by simpa using hi'.2) he.symm
      · exact h3
    · intro hk
      rw [special_declared] at hk
      exact absurd hk (hs.kml d hd)
  · refine ⟨?_, ?_, ?_, ?_⟩
    · intro i hi
      rw [items_same hd] at hi
      exact hitem i (hW.item i hi)
    · rw [items_same hd]; exact hW.text
    · rw [items_same hd]; exact hW.attrs
    · rw [items_same hd, special_declared]; exact hW.kml

theorem cycleOk_declared (hf : NewAttr L c it) (hs : Suitable L c it) {d : C} (hR : ReadOk L d) (hC : CycleOk L d) :
    CycleOk (declared L c it) d := by
  refine ⟨?_, ?_, ?_⟩
  · intro a n hn i hi ha
    by_cases hd : Inherits L d c
    · rw [info_declared hd] at hn
      rcases mem_items.mp hi with hi | ⟨rfl, _⟩
      · rcases List.mem_append.mp hn with hn | hn
        · exact hC.norm a n hn i hi ha
        · simp only [List.mem_singleton, Prod.mk.injEq] at hn
          exact absurd (ha.trans hn.1) (hf.items d hd i hi)
      · rcases List.mem_append.mp hn with hn | hn
        · refine absurd ?_ (hf.known d hd)
          rw [ha]
          exact List.mem_append.mpr (.inr (List.mem_map_of_mem (f := Prod.fst) hn))
        · simp only [List.mem_singleton, Prod.mk.injEq] at hn
          rw [hn.2]
          have := hs.get
          cases hg : i.get <;> simp_all [normKeep, storedAs]
    · rw [info_declared_other hd] at hn
      rw [items_same hd] at hi
      exact hC.norm a n hn i hi ha
  · intro h
    rw [special_declared] at h
    obtain ⟨⟨i1, a1, b1⟩, ⟨i2, a2, b2⟩, ⟨i3, a3, b3⟩⟩ := hC.track h
    exact ⟨⟨i1, mem_items.mpr (.inl a1), b1⟩, ⟨i2, mem_items.mpr (.inl a2), b2⟩, ⟨i3, mem_items.mpr (.inl a3), b3⟩⟩
  · intro h
    rw [special_declared] at h
    obtain ⟨i, a, b⟩ := hC.schema h
    exact ⟨i, mem_items.mpr (.inl a), b⟩

theorem namesOk_declared (hs : Suitable L c it) {d : C} (hm : (L.info d).mro.Nodup) (hN : NamesOk L d) :
    NamesOk (declared L c it) d := by
  have hl : localNames (declared L c it) = localNames L := funext fun i => localNames_declared L c it i
  by_cases hd : Inherits L d c
  · obtain ⟨pre, post, h1, h2⟩ := itemsOf_insert (it := it) hm hd
    refine ⟨?_, ?_, ?_, ?_, ?_, ?_⟩
    · have h3 := hN.nodup
      rw [itemsOf_declared, h2, hl]
      rw [h1, List.flatMap_append, List.nodup_append] at h3
      rw [List.flatMap_append, List.flatMap_cons, List.nodup_append, List.nodup_append]
      have ha : ∀ l ∈ localNames L it, ∀ i ∈ pre ++ post, l ∉ localNames L i :=
        fun l hl i hi => (hs.apart d hd i (h1 ▸ hi)).1 l hl
      refine ⟨h3.1, ⟨hs.names.1, h3.2.1, ?_⟩, ?_⟩
      · rintro x hx y hy rfl
        obtain ⟨i, hi, hy⟩ := List.mem_flatMap.mp hy
        exact ha x hx i (List.mem_append.mpr (.inr hi)) hy
      · rintro x hx y hy rfl
        rcases List.mem_append.mp hy with hy | hy
        · obtain ⟨i, hi, hx⟩ := List.mem_flatMap.mp hx
          exact ha x hy i (List.mem_append.mpr (.inl hi)) hx
        · exact h3.2.2 x hx x hy rfl
    · intro i hi
      rcases mem_items.mp hi with hi | ⟨rfl, _⟩
      · exact hN.node i hi
      · exact hs.node
    · intro i hi l hll
      rw [hl] at hll
      rcases mem_items.mp hi with hi | ⟨rfl, _⟩
      · exact hN.names i hi l hll
      · exact hs.names.2 l hll
    · have h3 := hN.attrs
      rw [itemsOf_declared, h2]
      rw [h1] at h3
      rw [filter_insert]
      split
      · rename_i hp
        simp only [decide_eq_true_eq] at hp
        rw [List.filter_append, List.map_append] at h3
        rw [List.map_append, List.map_cons]
        refine nodup_insert h3 fun hmem => ?_
        rw [← List.map_append, ← List.filter_append, ← h1] at hmem
        obtain ⟨i, hi, he⟩ := List.mem_map.mp hmem
        have hi' := List.mem_filter.mp hi
        exact (hs.apart d hd i hi'.1).2.1 hp (by simpa using hi'.2) he.symm
      · exact h3
    · have h3 := hN.text
      rw [itemsOf_declared, h2]
      rw [h1] at h3
      rw [filter_insert]
      split
      · rename_i hp
        simp only [decide_eq_true_eq] at hp
        have h0 : ∀ i ∈ pre ++ post, ¬ place i.get = .text := fun i hi h => (hs.apart d hd i (h1 ▸ hi)).2.2 ⟨hp, h⟩
        have e1 : pre.filter (fun i => decide (place i.get = .text)) = [] := by
          rw [List.filter_eq_nil_iff]; intro i hi; simpa using h0 i (List.mem_append.mpr (.inl hi))
        have e2 : post.filter (fun i => decide (place i.get = .text)) = [] := by
          rw [List.filter_eq_nil_iff]; intro i hi; simpa using h0 i (List.mem_append.mpr (.inr hi))
        simp [e1, e2]
      · exact h3
    · intro i hi
      rcases mem_items.mp hi with hi | ⟨rfl, _⟩
      · exact hN.ids i hi
      · exact hs.ids
  · refine ⟨?_, ?_, ?_, ?_, ?_, ?_⟩
    · rw [items_same hd, hl]; exact hN.nodup
    · rw [items_same hd]; exact hN.node
    · rw [items_same hd, hl]; exact hN.names
    · rw [items_same hd]; exact hN.attrs
    · rw [items_same hd]; exact hN.text
    · rw [items_same hd]; exact hN.ids

theorem geom_declared (L : Lib C) (c : C) (it : Item C) (d : C) :
    ((declared L c it).info d).geom = (L.info d).geom := by simp only [declared]; split <;> rfl

theorem bool_declared (L : Lib C) (c : C) (it : Item C) (d : C) :
    ((declared L c it).info d).bool = (L.info d).bool := by simp only [declared]; split <;> rfl

theorem hasGet_declared {d : C} {a : Str} {g : GetFn} (h : hasGet L d a g = true) : hasGet (declared L c it) d a g = true := by
  simp only [hasGet, List.any_eq_true] at h ⊢
  obtain ⟨i, hi, h⟩ := h
  exact ⟨i, mem_items.mpr (.inl hi), h⟩

theorem hasItem_declared {d : C} {a : Str} {g : GetFn} {Q Q' : C → Bool} (hQ : ∀ d, Q d = true → Q' d = true)
    (h : hasItem L d a g Q = true) : hasItem (declared L c it) d a g Q' = true := by
  simp only [hasItem, List.any_eq_true, Bool.and_eq_true, List.all_eq_true] at h ⊢
  obtain ⟨i, hi, h1, h2⟩ := h
  refine ⟨i, mem_items.mpr (.inl hi), h1, fun t ht => ?_⟩
  have := h2 t ht
  cases t <;> first | exact hQ _ this | exact this

theorem boolOk_declared {d : C} (h : boolOk L d = true) : boolOk (declared L c it) d = true := by
  simp only [boolOk, Bool.and_eq_true, bool_declared, geom_declared] at h ⊢
  refine ⟨?_, h.2⟩
  have h := h.1
  simp only [geomOk, geom_declared, bool_declared, special_declared] at h ⊢
  have hco : ∀ d, coordsCls L d = true → coordsCls (declared L c it) d = true := by
    intro d hd
    simp only [coordsCls, Bool.and_eq_true, special_declared] at hd ⊢
    exact ⟨hasGet_declared hd.1, hd.2⟩
  cases hg : (L.info d).geom <;> simp only [hg, Bool.and_eq_true] at h ⊢
  case point => exact hasItem_declared hco h
  case lineString => exact hasItem_declared hco h
  case linearRing => exact hasItem_declared hco h
  case boundary => exact hasItem_declared (fun _ h => h) h
  case polygon => exact ⟨hasItem_declared (fun _ h => by simpa using h) h.1, hasItem_declared (fun _ h => h) h.2⟩
  case multi => exact hasItem_declared (fun _ h => h) h
  case track => exact h
  case multiTrack => exact hasItem_declared (fun _ h => h) h
  case location => exact ⟨⟨hasGet_declared h.1.1, hasGet_declared h.1.2⟩, hasGet_declared h.2⟩
  case model => exact hasItem_declared (fun _ h => h) h
  case placemark => exact hasItem_declared (fun _ h => h) h

theorem nsid_declared (L : Lib C) (c : C) (it : Item C) (d : C) :
    ((declared L c it).info d).nsid = (L.info d).nsid := by simp only [declared]; split <;> rfl

/-- What round trips need of a library. -/
structure Sound (L : Lib C) : Prop where
  mro : ∀ d, (L.info d).mro.Nodup
  read : ∀ d, ReadOk L d
  write : ∀ d, WriteOk L d
  bool : ∀ d, boolOk L d = true
  cycle : ∀ d, CycleOk L d
  names : ∀ d, NamesOk L d

theorem homeOk_declared (hs : Suitable L c it) (ha : AtHome L c it) {d : C} (hH : HomeOk L d) : HomeOk (declared L c it) d := by
  refine ⟨fun i hi => ?_, fun i hi => ?_, fun i hi => ?_, fun i hi => ?_, fun i hi => ?_, fun i hi k => ?_, fun i hi k => ?_, fun i hi => ?_⟩ <;>
    rcases mem_items.mp hi with hi | ⟨rfl, hd⟩ <;> (try rw [nsid_declared])
  · exact hH.attr i hi
  · exact ha.attr
  · exact hH.child i hi
  · exact fun h => ha.child h d hd
  · exact hH.dt i hi
  · exact fun h => h.elim ha.time fun h => absurd h hs.get.2.2
  · exact hH.coords i hi
  · exact fun h => absurd h hs.get.2.1
  · exact hH.mode i hi
  · exact ha.mode
  · exact hH.object i hi k
  · exact ha.object k
  · exact hH.objects i hi k
  · exact ha.objects k
  · exact hH.whens i hi
  · exact fun h => absurd h hs.get.2.2

theorem sound_declared (hL : Sound L) (hf : NewAttr L c it) (hs : Suitable L c it) : Sound (declared L c it) where
  mro d := by
    have : ((declared L c it).info d).mro = (L.info d).mro := by simp only [declared]; split <;> rfl
    rw [this]; exact hL.mro d
  read d := readOk_declared hf hs (hL.mro d) (hL.read d)
  write d := writeOk_declared hf hs (hL.mro d) (hL.write d)
  bool d := boolOk_declared (hL.bool d)
  cycle d := cycleOk_declared hf hs (hL.read d) (hL.cycle d)
  names d := namesOk_declared hs (hL.mro d) (hL.names d)

/-- Writing typed objects succeeds (see C54). -/
theorem ser_succeeds (hL : Sound L) {d : C} {ns : Str} {nss : NsMap} {attrs : List (Str × Val C F)}
    (ht : typed L dim23 (.obj d ns nss attrs) = true) (o : Opts) : ∃ e, ser L o (.obj d ns nss attrs) = .ok e := by
  cases h : ser L o (.obj d ns nss attrs) with
  | ok e => exact ⟨e, rfl⟩
  | error x =>
    exfalso
    rcases ser_error hL.bool hL.write _ ht ⟨_, _, _, _, rfl⟩ x h with ⟨_, h⟩ | ⟨_, p, h1, h2, h3⟩
    · exact not_typeErr_dim23 h
    · simp only [dim23, decide_eq_true_eq] at h1
      rcases h1 with h1 | h1
      · exact h2 h1
      · exact h3 h1

/-- Objects in their default namespaces can be read back (see `C02_readable`). -/
theorem readable_sound (hL : Sound L) (hH : ∀ d, HomeOk L d) {P : Pt F → Bool} {v : Val C F} (ht : Everywhere (fun c _ _ attrs => objOk L P c attrs = true) v)
    {N : NsMap} (h0 : nsGet N [] = []) (h1 : ∀ d, (L.info d).special = .kml → nsGet N (L.info d).nsid ≠ [])
    (hh : Everywhere (fun c ns nss _ => Home L N c ns nss) v)
    (hc : Everywhere (fun c ns nss attrs => Complete L c ns nss attrs) v) (o : Opts) : Everywhere (Readable L o N) v := by
  intro c ns nss attrs hin
  exact readable_home (hH c) (hL.write c) o (ht _ _ _ _ hin) h0 (h1 c)
    (fun c' n' s' a' hin' => hh _ _ _ _ (hin'.trans hin)) (hc _ _ _ _ hin)

end Verif
