import Verif.Spec.Log
import Verif.Props.Reading
import Verif.Props.Modes
import Verif.Props.Errors

/-!
# C82: what reading logs
-/

set_option linter.unusedSectionVars false
set_option linter.unusedSimpArgs false

namespace Verif

variable {C F : Type} [DecidableEq C] [PyExt F]

/-! ## Logging does not change the result -/

theorem andThen_res {α β : Type} (x : Logged α) (f : α → Logged β) :
    (x.andThen f).res = match x.res with | .error e => .error e | .ok a => (f a).res := by
  unfold Logged.andThen
  cases x.res <;> rfl

theorem handleErrorL_res {α : Type} (strict : Bool) (ex : Str) (n e : Xml) (k : Logged α) :
    (handleErrorL strict ex n e k).res = match handleError strict () with | .error e => .error e | .ok () => k.res := by
  cases strict <;> rfl

theorem getSubL_res {α : Type} (pre : Str → List Record) (conv : Str → Option α) (ex : Str) (e : Xml) (tag : Str) (strict : Bool) :
    (getSubL pre conv ex e tag strict).res = getSub conv e tag strict := by
  unfold getSubL getSub
  cases e.find tag with
  | none => rfl
  | some n =>
    cases h1 : strippedText n.text with
    | none => simp only [h1]; rfl
    | some t =>
      simp only [h1, Logged.after]
      cases conv t with
      | some a => rfl
      | none => cases strict <;> rfl

theorem getAttrL_res {α : Type} (pre : Str → List Record) (conv : Str → Option α) (ex : Str) (e : Xml) (tag : Str) (strict : Bool) :
    (getAttrL pre conv ex e tag strict).res = getAttr conv e tag strict := by
  unfold getAttrL getAttr
  cases getAttrText e tag with
  | none => rfl
  | some t =>
    simp only [Logged.after]
    cases conv t with
    | some a => rfl
    | none => cases strict <;> rfl

theorem getDtsL_res (g : Str → Option (Date × Time)) (strict : Bool) (e : Xml) (ns : List Xml) :
    (getDtsL g strict e ns).res = getDts g strict ns := by
  induction ns with
  | nil => rfl
  | cons n ns ih =>
    simp only [getDtsL, getDts]
    cases n.text with
    | none => rfl
    | some t =>
      simp only []
      cases KmlDateTime.parse g t with
      | some k => simp only [andThen_res, ih]; cases getDts g strict ns <;> rfl
      | none => simp only [handleErrorL_res, ih]; cases strict <;> rfl

theorem getCoordArgsL_res (strict : Bool) (e : Xml) (ns : List Xml) :
    (getCoordArgsL (F := F) strict e ns).res = getCoordArgs strict ns := by
  induction ns with
  | nil => rfl
  | cons n ns ih =>
    simp only [getCoordArgsL, getCoordArgs]
    cases n.text with
    | none => exact ih
    | some t =>
      simp only []
      split
      · exact ih
      · cases floatsOf (F := F) (splitWs t) with
        | some k => simp only [andThen_res, ih]; cases getCoordArgs (F := F) strict ns <;> rfl
        | none => simp only [handleErrorL_res, ih]; cases strict <;> rfl

theorem getCoordinatesL_res (e : Xml) (strict : Bool) : (getCoordinatesL (F := F) e strict).res = getCoordinates e strict := by
  unfold getCoordinatesL getCoordinates
  cases e.text with
  | none => rfl
  | some t =>
    simp only []
    cases tuplesOf (F := F) (latlons t) with
    | some c => rfl
    | none => cases strict <;> rfl

/-- The children of an element prepared for reading with `f`. -/
def lkidsOf (f : Xml → C → Str → NsMap → Logged (Val C F)) (ks : List Xml) : List (LKid C F) :=
  ks.map fun k => ⟨k.tag, f k⟩

theorem parseKidsL_eq (L : Lib C) (strict : Bool) (ks : List Xml) :
    parseKidsL (F := F) L strict ks = lkidsOf (parseL L strict) ks := by
  induction ks with
  | nil => simp [parseKidsL, lkidsOf]
  | cons k ks ih => simp only [parseKidsL, ih, lkidsOf, List.map_cons]

theorem parseL_eq (L : Lib C) (strict : Bool) (e : Xml) (c : C) (ns : Str) (nss : NsMap) :
    parseL (F := F) L strict e c ns nss =
      parseStepL L strict e (lkidsOf (parseL L strict) e.kids) c ns nss := by
  cases e with
  | mk t a x ks => simp only [parseL, parseKidsL_eq]; rfl

theorem find_lkidsOf (f : Xml → C → Str → NsMap → Logged (Val C F)) (ks : List Xml) (t : Str) :
    (lkidsOf f ks).find? (fun k => decide (k.tag = t)) =
      (ks.find? (fun k => decide (k.tag = t))).map fun k => ⟨k.tag, f k⟩ := by
  simp only [lkidsOf, List.find?_map]
  rfl

theorem filter_lkidsOf (f : Xml → C → Str → NsMap → Logged (Val C F)) (ks : List Xml) (t : Str) :
    (lkidsOf f ks).filter (fun k => decide (k.tag = t)) =
      lkidsOf f (ks.filter (fun k => decide (k.tag = t))) := by
  simp only [lkidsOf, List.filter_map]
  rfl

section
variable {L : Lib C} {f : Xml → C → Str → NsMap → Logged (Val C F)} {g : Xml → C → Str → NsMap → Except Err (Val C F)}
  {ks : List Xml} (hfg : ∀ k ∈ ks, ∀ c ns nss, (f k c ns nss).res = g k c ns nss)
include hfg

theorem getXmlSubL_res (ns : Str) (nss : NsMap) (cs : List (PyType C)) :
    (getXmlSubL L (lkidsOf f ks) ns nss cs).res = getXmlSub L (kidsOf g ks) ns nss cs := by
  induction cs with
  | nil => rfl
  | cons c cs ih =>
    cases c with
    | cls c =>
      simp only [getXmlSubL, getXmlSub, find_kidsOf, find_lkidsOf]
      cases hk : ks.find? (fun k => decide (k.tag = ns ++ (L.info c).tag)) with
      | none => exact ih
      | some k =>
        simp only [Option.map_some, andThen_res, hfg k (List.mem_of_find?_eq_some hk)]
        cases g k c ns nss <;> rfl
    | _ => rfl

theorem readAllL_res (c : C) (ns : Str) (nss : NsMap) :
    (readAllL c ns nss (lkidsOf f ks)).res = readAll c ns nss (kidsOf g ks) := by
  induction ks with
  | nil => rfl
  | cons k ks ih =>
    simp only [lkidsOf, kidsOf, List.map_cons, readAllL, readAll, andThen_res, hfg k (by simp)]
    cases g k c ns nss with
    | error e => rfl
    | ok v =>
      have := ih fun k hk => hfg k (by simp [hk])
      simp only [lkidsOf, kidsOf] at this
      simp only [this, andThen_res]
      cases readAll c ns nss (ks.map fun k => (⟨k.tag, g k⟩ : Kid C F)) <;> rfl

theorem getXmlSubListL_res (ns : Str) (nss : NsMap) (cs : List (PyType C)) :
    (getXmlSubListL L (lkidsOf f ks) ns nss cs).res = getXmlSubList L (kidsOf g ks) ns nss cs := by
  induction cs with
  | nil => rfl
  | cons c cs ih =>
    cases c with
    | cls c =>
      simp only [getXmlSubListL, getXmlSubList, filter_kidsOf, filter_lkidsOf, andThen_res, ih]
      rw [readAllL_res (fun k hk => hfg k (List.mem_filter.mp hk).1)]
      cases readAll c ns nss (kidsOf g (ks.filter fun k => decide (k.tag = ns ++ (L.info c).tag))) with
      | error e => rfl
      | ok vs => cases getXmlSubList L (kidsOf g ks) ns nss cs <;> rfl
    | _ => rfl

theorem getKwargL_res (it : Item C) (strict : Bool) (ns : Str) (nss : NsMap) (e : Xml) :
    (getKwargL L it strict ns nss e (lkidsOf f ks)).res = getKwarg L it strict ns nss e (kidsOf g ks) := by
  unfold getKwargL getKwarg
  cases hg : it.get <;> simp only
  case xmlSub => exact getXmlSubL_res hfg ns nss _
  case xmlSubList => simp only [andThen_res, getXmlSubListL_res hfg]; cases getXmlSubList L (kidsOf g ks) ns nss it.classes <;> rfl
  case subBool =>
    split <;> rename_i hcls <;> simp only [Logged.wrap, Logged.raise, getSubL_res, hcls]
  case subEnum =>
    split <;> rename_i hcls <;> simp only [Logged.wrap, Logged.raise, getSubL_res, hcls]
  case attrEnum =>
    split <;> rename_i hcls <;> simp only [Logged.wrap, Logged.raise, getAttrL_res, hcls]
  all_goals simp only [Logged.wrap, Logged.value, Logged.nonEmpty, getSubL_res, getAttrL_res, getDtsL_res, getCoordArgsL_res, getCoordinatesL_res]

theorem tryNsL_res (it : Item C) (strict : Bool) (nss : NsMap) (e : Xml) (ids : List Str) :
    (tryNsL L it strict nss e (lkidsOf f ks) ids).res = tryNs L it strict nss e (kidsOf g ks) ids := by
  induction ids with
  | nil => rfl
  | cons id ids ih =>
    simp only [tryNsL, tryNs, andThen_res, getKwargL_res hfg]
    cases getKwarg L it strict (nsGet nss id) nss e (kidsOf g ks) with
    | error e => rfl
    | ok r => cases r <;> simp [ih, Logged.value]

theorem getKwargsL_res (strict : Bool) (nss : NsMap) (e : Xml) (items : List (Item C)) (kw : List (Str × Val C F)) :
    (getKwargsL L strict nss e (lkidsOf f ks) items kw).res = getKwargs L strict nss e (kidsOf g ks) items kw := by
  induction items generalizing kw with
  | nil => rfl
  | cons it items ih =>
    simp only [getKwargsL, getKwargs, andThen_res, tryNsL_res hfg]
    cases tryNs L it strict nss e (kidsOf g ks) it.nsIds with
    | error e => rfl
    | ok r => cases r <;> simp [ih]

end

/-- **C82.** Logging does not change what is read. -/
theorem C82_result (L : Lib C) (strict : Bool) (e : Xml) : ∀ (c : C) (ns : Str) (nss : NsMap),
    (parseL (F := F) L strict e c ns nss).res = parse L strict e c ns nss := by
  induction e using Xml.ind with
  | h t a x ks ih =>
    intro c ns nss
    rw [parse_eq, parseL_eq]
    unfold parseStepL parseStep
    simp only [Xml.kids]
    rw [andThen_res, getKwargsL_res (g := parse L strict) (fun k hk => ih k hk)]
    cases getKwargs (F := F) L strict (mergeNs nss) (.mk t a x ks) (kidsOf (parse L strict) ks) (L.itemsOf c) [] <;> rfl

/-! ## Silence -/

theorem andThen_value {α β : Type} {x : Logged α} {f : α → Logged β} {b : β} :
    x.andThen f = .value b ↔ ∃ a, x = .value a ∧ f a = .value b := by
  rcases x with ⟨l, r⟩
  cases r with
  | error e => simp [Logged.andThen, Logged.value]
  | ok a =>
    simp only [Logged.andThen, Logged.value, Logged.mk.injEq, List.append_eq_nil_iff, Except.ok.injEq]
    constructor
    · rintro ⟨⟨h1, h2⟩, h3⟩
      exact ⟨a, ⟨h1, rfl⟩, by cases hf : f a; rw [hf] at h2 h3; simp_all⟩
    · rintro ⟨a', ⟨h1, rfl⟩, h2⟩
      rw [h2]
      exact ⟨⟨h1, rfl⟩, rfl⟩

theorem wrap_value {α : Type} {w : α → Val C F} {x : Logged (Option α)} {r : Option (Val C F)} :
    x.wrap w = .value r ↔ ∃ o, x = .value o ∧ r = o.map w := by
  rcases x with ⟨l, res⟩
  cases res with
  | error e => simp [Logged.wrap, Verif.wrap, Logged.value]
  | ok o =>
    constructor
    · intro h
      refine ⟨o, ?_, ?_⟩ <;> cases o <;> simp_all [Logged.wrap, Verif.wrap, Logged.value]
    · rintro ⟨o', h, rfl⟩
      simp only [Logged.value, Logged.mk.injEq, Except.ok.injEq] at h
      obtain ⟨rfl, rfl⟩ := h
      cases o <;> rfl

theorem nonEmpty_value {α : Type} {x : Logged (List α)} {r : Option (List α)} :
    x.nonEmpty = .value r ↔ ∃ l, x = .value l ∧ nonEmptyList (.ok l) = .ok r := by
  rcases x with ⟨l, res⟩
  cases res with
  | error e => simp [Logged.nonEmpty, nonEmptyList, Logged.value]
  | ok o =>
    simp only [Logged.nonEmpty, Logged.value, Logged.mk.injEq, Except.ok.injEq]
    constructor
    · rintro ⟨h1, h2⟩; exact ⟨o, ⟨h1, rfl⟩, h2⟩
    · rintro ⟨l', ⟨h1, rfl⟩, h2⟩; exact ⟨h1, h2⟩

theorem wrap_ok {α : Type} {w : α → Val C F} {x : Except Err (Option α)} {r : Option (Val C F)} :
    wrap w x = .ok r ↔ ∃ o, x = .ok o ∧ r = o.map w := by
  cases x with
  | error e => simp [wrap]
  | ok o => cases o <;> simp [wrap, eq_comm]

theorem nonEmpty_ok {α : Type} {x : Except Err (List α)} {r : Option (List α)} :
    nonEmptyList x = .ok r ↔ ∃ l, x = .ok l ∧ nonEmptyList (.ok l) = .ok r := by
  cases x with
  | error e => simp [nonEmptyList]
  | ok o => simp

theorem after_value {α : Type} {l : List Record} {x : Logged α} {a : α} : x.after l = .value a ↔ l = [] ∧ x = .value a := by
  rcases x with ⟨m, r⟩
  simp only [Logged.after, Logged.value, Logged.mk.injEq, List.append_eq_nil_iff, and_assoc]

theorem handleErrorL_value {α : Type} {s : Bool} {ex : Str} {n e : Xml} {k : Logged α} {a : α} :
    handleErrorL s ex n e k ≠ .value a := by
  cases s <;> simp [handleErrorL, Logged.after, Logged.value, Logged.raise]

theorem value_inj {α : Type} {a b : α} : (Logged.value a = .value b) ↔ a = b := by
  simp [Logged.value]

theorem getSubL_quiet {α : Type} {s : Bool} {pre : Str → List Record} {conv conv' : Str → Option α} {ex : Str} {e : Xml} {tag : Str} {r : Option α}
    (hc : ∀ t a, conv t = some a → pre t = [] ∧ conv' t = some a) (h : getSub conv e tag true = .ok r) :
    getSubL pre conv' ex e tag s = .value r := by
  unfold getSub at h
  unfold getSubL
  cases hf : e.find tag with
  | none => rw [hf] at h; simp at h; rw [← h]
  | some n =>
    rw [hf] at h
    simp only at h ⊢
    cases ht : strippedText n.text with
    | none => rw [ht] at h; simp at h; rw [← h]
    | some t =>
      rw [ht] at h
      simp only at h ⊢
      cases hv : conv t with
      | none => rw [hv] at h; simp [handleError] at h
      | some a =>
        rw [hv] at h
        simp at h
        obtain ⟨h1, h2⟩ := hc t a hv
        rw [after_value, h2, h1, ← h]
        exact ⟨rfl, rfl⟩

theorem getSubL_loud {α : Type} {pre : Str → List Record} {conv conv' : Str → Option α} {ex : Str} {e : Xml} {tag : Str} {r : Option α}
    (hc : ∀ n t a, n ∈ e.kids → n.tag = tag → strippedText n.text = some t → pre t = [] → conv' t = some a → conv t = some a)
    (h : getSubL pre conv' ex e tag false = .value r) :
    getSub conv e tag true = .ok r := by
  unfold getSubL at h
  unfold getSub
  cases hf : e.find tag with
  | none => rw [hf] at h; rw [value_inj.mp h]
  | some n =>
    rw [hf] at h
    simp only at h ⊢
    cases ht : strippedText n.text with
    | none => rw [ht] at h; rw [value_inj.mp h]
    | some t =>
      rw [ht] at h
      simp only [after_value] at h ⊢
      cases hv : conv' t with
      | none => rw [hv] at h; exact absurd h.2 handleErrorL_value
      | some a =>
        rw [hv] at h
        have hm : n ∈ e.kids ∧ n.tag = tag := by
          unfold Xml.find at hf
          exact ⟨List.mem_of_find?_eq_some hf, by simpa using List.find?_some hf⟩
        rw [hc n t a hm.1 hm.2 ht h.1 hv, ← value_inj.mp h.2]

theorem getAttrL_quiet {α : Type} {s : Bool} {pre : Str → List Record} {conv conv' : Str → Option α} {ex : Str} {e : Xml} {tag : Str} {r : Option α}
    (hc : ∀ t a, conv t = some a ↔ pre t = [] ∧ conv' t = some a) :
    getAttrL pre conv' ex e tag s = .value r ↔ getAttr conv e tag true = .ok r := by
  unfold getAttrL getAttr
  cases ht : getAttrText e tag with
  | none => simp [value_inj]
  | some t =>
    simp only [after_value]
    cases hv : conv t with
    | none =>
      simp only [handleError, if_true, reduceCtorEq, iff_false]
      rintro ⟨h1, h2⟩
      cases hv' : conv' t with
      | none => rw [hv'] at h2; exact handleErrorL_value h2
      | some a => rw [(hc t a).mpr ⟨h1, hv'⟩] at hv; cases hv
    | some a =>
      obtain ⟨h1, h2⟩ := (hc t a).mp hv
      simp [h1, h2, value_inj]

theorem getDtsL_quiet {s : Bool} {g : Str → Option (Date × Time)} {e : Xml} {ns : List Xml} {r : List (Option KmlDateTime)} :
    getDtsL g s e ns = .value r ↔ getDts g true ns = .ok r := by
  induction ns generalizing r with
  | nil => simp [getDtsL, getDts, value_inj]
  | cons n ns ih =>
    simp only [getDtsL, getDts]
    cases n.text with
    | none => simp [Logged.raise, Logged.value]
    | some t =>
      simp only []
      cases KmlDateTime.parse g t with
      | none => simp [handleErrorL_value, handleError]
      | some k =>
        simp only [andThen_value, ih, value_inj]
        cases getDts g true ns with
        | error e => simp
        | ok l => simp

theorem getCoordArgsL_quiet {s : Bool} {e : Xml} {ns : List Xml} {r : List (Pt F)} :
    getCoordArgsL s e ns = .value r ↔ getCoordArgs true ns = .ok r := by
  induction ns generalizing r with
  | nil => simp [getCoordArgsL, getCoordArgs, value_inj]
  | cons n ns ih =>
    simp only [getCoordArgsL, getCoordArgs]
    cases n.text with
    | none => exact ih
    | some t =>
      simp only []
      split
      · exact ih
      · cases floatsOf (F := F) (splitWs t) with
        | none => simp [handleErrorL_value, handleError]
        | some k =>
          simp only [andThen_value, ih, value_inj]
          cases getCoordArgs (F := F) true ns with
          | error e => simp
          | ok l => simp

theorem getCoordinatesL_quiet {s : Bool} {e : Xml} {r : Option (List (Pt F))} :
    getCoordinatesL e s = .value r ↔ getCoordinates e true = .ok r := by
  unfold getCoordinatesL getCoordinates
  cases e.text with
  | none => simp [value_inj]
  | some t =>
    simp only []
    cases tuplesOf (F := F) (latlons t) with
    | none => cases s <;> simp [after_value, handleError]
    | some c => simp [value_inj]

theorem enumLog_nil {en : EnumId} {t v : Str} : getEnumValue en t true = some v ↔ enumLog en t = [] ∧ getEnumValue en t false = some v := by
  unfold getEnumValue enumLog enumCall
  by_cases h : t ∈ en.values
  · simp [h]
  · simp only [if_neg h]
    cases hf : en.values.find? (fun v => decide (lower v = lower t)) with
    | none => simp
    | some w =>
      have hw : w ≠ t := fun hw => h (hw ▸ List.mem_of_find?_eq_some hf)
      simp [hw]

theorem enumLog_both {s : Bool} {en : EnumId} {t v : Str} :
    getEnumValue en t true = some v ↔ enumLog en t = [] ∧ getEnumValue en t s = some v := by
  cases s
  · exact enumLog_nil
  · exact ⟨fun h => ⟨(enumLog_nil.mp h).1, h⟩, fun h => h.2⟩

section
variable {L : Lib C} {f : Xml → C → Str → NsMap → Logged (Val C F)} {g : Xml → C → Str → NsMap → Except Err (Val C F)}
  {ks : List Xml}

theorem getXmlSubL_quiet (hfg : ∀ k ∈ ks, ∀ c ns nss v, g k c ns nss = .ok v → f k c ns nss = .value v)
    {ns : Str} {nss : NsMap} {cs : List (PyType C)} {r : Option (Val C F)}
    (h : getXmlSub L (kidsOf g ks) ns nss cs = .ok r) : getXmlSubL L (lkidsOf f ks) ns nss cs = .value r := by
  induction cs with
  | nil => simp [getXmlSub] at h; rw [← h]; rfl
  | cons c cs ih =>
    cases c with
    | cls c =>
      simp only [getXmlSubL, getXmlSub, find_kidsOf, find_lkidsOf] at h ⊢
      cases hk : ks.find? (fun k => decide (k.tag = ns ++ (L.info c).tag)) with
      | none => rw [hk] at h; exact ih h
      | some k =>
        rw [hk] at h
        simp only [Option.map_some] at h ⊢
        split at h
        · cases h
        · rename_i v hv
          simp at h
          rw [andThen_value]
          exact ⟨v, hfg k (List.mem_of_find?_eq_some hk) _ _ _ _ hv, by rw [← h]⟩
    | _ => simp [getXmlSub] at h

theorem getXmlSubL_loud (hfg : ∀ k ∈ ks, ∀ c ns nss v, f k c ns nss = .value v → g k c ns nss = .ok v)
    {ns : Str} {nss : NsMap} {cs : List (PyType C)} {r : Option (Val C F)}
    (h : getXmlSubL L (lkidsOf f ks) ns nss cs = .value r) : getXmlSub L (kidsOf g ks) ns nss cs = .ok r := by
  induction cs with
  | nil => rw [← value_inj.mp h]; rfl
  | cons c cs ih =>
    cases c with
    | cls c =>
      simp only [getXmlSubL, getXmlSub, find_kidsOf, find_lkidsOf] at h ⊢
      cases hk : ks.find? (fun k => decide (k.tag = ns ++ (L.info c).tag)) with
      | none => rw [hk] at h; exact ih h
      | some k =>
        rw [hk] at h
        simp only [Option.map_some, andThen_value, value_inj] at h ⊢
        obtain ⟨v, hv, rfl⟩ := h
        rw [hfg k (List.mem_of_find?_eq_some hk) _ _ _ _ hv]
    | _ => simp [getXmlSubL, Logged.raise, Logged.value] at h

theorem readAllL_quiet (hfg : ∀ k ∈ ks, ∀ c ns nss v, g k c ns nss = .ok v → f k c ns nss = .value v)
    {c : C} {ns : Str} {nss : NsMap} {r : List (Val C F)} (h : readAll c ns nss (kidsOf g ks) = .ok r) :
    readAllL c ns nss (lkidsOf f ks) = .value r := by
  induction ks generalizing r with
  | nil => simp only [readAll, kidsOf, List.map_nil] at h; cases h; rfl
  | cons k ks ih =>
    simp only [lkidsOf, kidsOf, List.map_cons, readAllL, readAll, andThen_value, value_inj] at h ⊢
    split at h
    · cases h
    · rename_i v hv
      split at h
      · cases h
      · rename_i vs hvs
        simp at h
        exact ⟨v, hfg k (by simp) _ _ _ _ hv, vs, ih (fun k hk => hfg k (by simp [hk])) hvs, h⟩

theorem readAllL_loud (hfg : ∀ k ∈ ks, ∀ c ns nss v, f k c ns nss = .value v → g k c ns nss = .ok v)
    {c : C} {ns : Str} {nss : NsMap} {r : List (Val C F)} (h : readAllL c ns nss (lkidsOf f ks) = .value r) :
    readAll c ns nss (kidsOf g ks) = .ok r := by
  induction ks generalizing r with
  | nil => rw [← value_inj.mp h]; rfl
  | cons k ks ih =>
    simp only [lkidsOf, kidsOf, List.map_cons, readAllL, readAll, andThen_value, value_inj] at h ⊢
    obtain ⟨v, hv, vs, hvs, rfl⟩ := h
    have := ih (fun k hk => hfg k (by simp [hk])) hvs
    simp only [kidsOf] at this
    rw [hfg k (by simp) _ _ _ _ hv, this]

theorem getXmlSubListL_quiet (hfg : ∀ k ∈ ks, ∀ c ns nss v, g k c ns nss = .ok v → f k c ns nss = .value v)
    {ns : Str} {nss : NsMap} {cs : List (PyType C)} {r : List (Val C F)}
    (h : getXmlSubList L (kidsOf g ks) ns nss cs = .ok r) : getXmlSubListL L (lkidsOf f ks) ns nss cs = .value r := by
  induction cs generalizing r with
  | nil => simp only [getXmlSubList] at h; cases h; rfl
  | cons c cs ih =>
    cases c with
    | cls c =>
      simp only [getXmlSubListL, getXmlSubList, filter_kidsOf, filter_lkidsOf, andThen_value, value_inj] at h ⊢
      split at h
      · cases h
      · rename_i vs hvs
        split at h
        · cases h
        · rename_i ws hws
          simp at h
          exact ⟨vs, readAllL_quiet (fun k hk => hfg k (List.mem_filter.mp hk).1) hvs, ws, ih hws, h⟩
    | _ => simp [getXmlSubList] at h

theorem getXmlSubListL_loud (hfg : ∀ k ∈ ks, ∀ c ns nss v, f k c ns nss = .value v → g k c ns nss = .ok v)
    {ns : Str} {nss : NsMap} {cs : List (PyType C)} {r : List (Val C F)}
    (h : getXmlSubListL L (lkidsOf f ks) ns nss cs = .value r) : getXmlSubList L (kidsOf g ks) ns nss cs = .ok r := by
  induction cs generalizing r with
  | nil => rw [← value_inj.mp h]; rfl
  | cons c cs ih =>
    cases c with
    | cls c =>
      simp only [getXmlSubListL, getXmlSubList, filter_kidsOf, filter_lkidsOf, andThen_value, value_inj] at h ⊢
      obtain ⟨vs, hvs, ws, hws, rfl⟩ := h
      rw [readAllL_loud (fun k hk => hfg k (List.mem_filter.mp hk).1) hvs]
      simp only [ih hws]
    | _ => simp [getXmlSubListL, Logged.raise, Logged.value] at h

theorem getKwargL_quiet {s : Bool} (hfg : ∀ k ∈ ks, ∀ c ns nss v, g k c ns nss = .ok v → f k c ns nss = .value v)
    {it : Item C} {ns : Str} {nss : NsMap} {e : Xml} {r : Option (Val C F)}
    (h : getKwarg L it true ns nss e (kidsOf g ks) = .ok r) : getKwargL L it s ns nss e (lkidsOf f ks) = .value r := by
  have conv : ∀ {α : Type} (k : Str → Option α) t a, k t = some a → noLog t = [] ∧ k t = some a := fun _ _ _ h => ⟨rfl, h⟩
  unfold getKwarg at h
  unfold getKwargL
  cases hg : it.get <;> rw [hg] at h <;> simp only at h ⊢
  case subBool =>
    split at h
    · rename_i hcls
      rw [wrap_ok] at h
      obtain ⟨o, h1, h2⟩ := h
      try simp only [hcls]
      exact wrap_value.mpr ⟨o, getSubL_quiet (fun t a ha => ⟨rfl, by
        cases s
        · exact boolValue_mono ha
        · exact ha⟩) h1, h2⟩
    · cases h
  case subEnum =>
    split at h
    · rename_i hcls
      rw [wrap_ok] at h
      obtain ⟨o, h1, h2⟩ := h
      try simp only [hcls]
      exact wrap_value.mpr ⟨o, getSubL_quiet (fun t a ha => enumLog_both.mp ha) h1, h2⟩
    · cases h
  case attrEnum =>
    split at h
    · rename_i hcls
      rw [wrap_ok] at h
      obtain ⟨o, h1, h2⟩ := h
      try simp only [hcls]
      exact wrap_value.mpr ⟨o, (getAttrL_quiet (fun t a => enumLog_both)).mpr h1, h2⟩
    · cases h
  case xmlSub => exact getXmlSubL_quiet hfg h
  case xmlSubList =>
    split at h
    · cases h
    · rename_i vs hvs
      simp at h
      exact andThen_value.mpr ⟨vs, getXmlSubListL_quiet hfg hvs, by rw [← h]⟩
  case nodeText => simp at h; rw [← h]
  case subText => simp at h; rw [← h]
  case attrText => simp at h; rw [← h]
  all_goals
    rw [wrap_ok] at h
    obtain ⟨o, h1, h2⟩ := h
    refine wrap_value.mpr ⟨o, ?_, h2⟩
  case subInt => exact getSubL_quiet (conv _) h1
  case attrInt => rw [h1]; rfl
  case subFloat => exact getSubL_quiet (conv _) h1
  case attrFloat => exact (getAttrL_quiet (fun t a => ⟨fun h => ⟨rfl, h⟩, fun h => h.2⟩)).mpr h1
  case subDt => exact getSubL_quiet (conv _) h1
  case subDtList =>
    obtain ⟨l, h3, h4⟩ := nonEmpty_ok.mp h1
    exact nonEmpty_value.mpr ⟨l, getDtsL_quiet.mpr h3, h4⟩
  case coordsList =>
    obtain ⟨l, h3, h4⟩ := nonEmpty_ok.mp h1
    exact nonEmpty_value.mpr ⟨l, getCoordArgsL_quiet.mpr h3, h4⟩
  case coordinates => exact getCoordinatesL_quiet.mpr h1

theorem getKwargL_loud (hfg : ∀ k ∈ ks, ∀ c ns nss v, f k c ns nss = .value v → g k c ns nss = .ok v)
    {it : Item C} {ns : Str} {nss : NsMap} {e : Xml} {r : Option (Val C F)}
    (hb : it.get = .subBool → ∀ n ∈ e.kids, n.tag = ns ++ it.node → ∀ t b, strippedText n.text = some t →
      getBooleanValue F t false = some b → getBooleanValue F t true = some b)
    (h : getKwargL L it false ns nss e (lkidsOf f ks) = .value r) : getKwarg L it true ns nss e (kidsOf g ks) = .ok r := by
  unfold getKwargL at h
  unfold getKwarg
  cases hg : it.get <;> rw [hg] at h <;> simp only at h ⊢
  case subBool =>
    split at h
    · rename_i hcls
      rw [wrap_value] at h
      obtain ⟨o, h1, h2⟩ := h
      try simp only [hcls]
      exact wrap_ok.mpr ⟨o, getSubL_loud (fun n t a hn ht hs _ ha => hb hg n hn ht t a hs ha) h1, h2⟩
    · simp [Logged.raise, Logged.value] at h
  case subEnum =>
    split at h
    · rename_i hcls
      rw [wrap_value] at h
      obtain ⟨o, h1, h2⟩ := h
      try simp only [hcls]
      exact wrap_ok.mpr ⟨o, getSubL_loud (fun n t a _ _ _ hp ha => enumLog_nil.mpr ⟨hp, ha⟩) h1, h2⟩
    · simp [Logged.raise, Logged.value] at h
  case attrEnum =>
    split at h
    · rename_i hcls
      rw [wrap_value] at h
      obtain ⟨o, h1, h2⟩ := h
      try simp only [hcls]
      exact wrap_ok.mpr ⟨o, (getAttrL_quiet (fun t a => enumLog_nil)).mp h1, h2⟩
    · simp [Logged.raise, Logged.value] at h
  case xmlSub => exact getXmlSubL_loud hfg h
  case xmlSubList =>
    obtain ⟨vs, hvs, h2⟩ := andThen_value.mp h
    rw [getXmlSubListL_loud hfg hvs, ← value_inj.mp h2]
  case nodeText => rw [value_inj.mp h]
  case subText => rw [value_inj.mp h]
  case attrText => rw [value_inj.mp h]
  all_goals
    rw [wrap_value] at h
    obtain ⟨o, h1, h2⟩ := h
    refine wrap_ok.mpr ⟨o, ?_, h2⟩
  case subInt => exact getSubL_loud (fun n t a _ _ _ _ ha => ha) h1
  case attrInt => simpa [Logged.value] using h1
  case subFloat => exact getSubL_loud (fun n t a _ _ _ _ ha => ha) h1
  case attrFloat => exact (getAttrL_quiet (fun t a => ⟨fun h => ⟨rfl, h⟩, fun h => h.2⟩)).mp h1
  case subDt => exact getSubL_loud (fun n t a _ _ _ _ ha => ha) h1
  case subDtList =>
    obtain ⟨l, h3, h4⟩ := nonEmpty_value.mp h1
    exact nonEmpty_ok.mpr ⟨l, getDtsL_quiet.mp h3, h4⟩
  case coordsList =>
    obtain ⟨l, h3, h4⟩ := nonEmpty_value.mp h1
    exact nonEmpty_ok.mpr ⟨l, getCoordArgsL_quiet.mp h3, h4⟩
  case coordinates => exact getCoordinatesL_quiet.mp h1

theorem tryNsL_quiet {s : Bool} (hfg : ∀ k ∈ ks, ∀ c ns nss v, g k c ns nss = .ok v → f k c ns nss = .value v)
    {it : Item C} {nss : NsMap} {e : Xml} {ids : List Str} {r : Option (Val C F)}
    (h : tryNs L it true nss e (kidsOf g ks) ids = .ok r) : tryNsL L it s nss e (lkidsOf f ks) ids = .value r := by
  induction ids with
  | nil => simp [tryNs] at h; rw [← h]; rfl
  | cons id ids ih =>
    simp only [tryNs] at h
    simp only [tryNsL, andThen_value]
    split at h
    · cases h
    · rename_i v hv; simp at h; exact ⟨_, getKwargL_quiet hfg hv, by rw [← h]⟩
    · rename_i hv; exact ⟨_, getKwargL_quiet hfg hv, ih h⟩

theorem tryNsL_loud (hfg : ∀ k ∈ ks, ∀ c ns nss v, f k c ns nss = .value v → g k c ns nss = .ok v)
    {it : Item C} {nss : NsMap} {e : Xml} {ids : List Str} {r : Option (Val C F)}
    (hb : it.get = .subBool → ∀ n ∈ e.kids, (∃ ns, n.tag = ns ++ it.node) → ∀ t b, strippedText n.text = some t →
      getBooleanValue F t false = some b → getBooleanValue F t true = some b)
    (h : tryNsL L it false nss e (lkidsOf f ks) ids = .value r) : tryNs L it true nss e (kidsOf g ks) ids = .ok r := by
  induction ids with
  | nil => rw [← value_inj.mp h]; rfl
  | cons id ids ih =>
    simp only [tryNsL, andThen_value] at h
    obtain ⟨o, h1, h2⟩ := h
    simp only [tryNs, getKwargL_loud hfg (fun hg n hn ht => hb hg n hn ⟨_, ht⟩) h1]
    cases o with
    | none => exact ih h2
    | some v => simp only [value_inj.mp h2]

theorem getKwargsL_quiet {s : Bool} (hfg : ∀ k ∈ ks, ∀ c ns nss v, g k c ns nss = .ok v → f k c ns nss = .value v)
    {nss : NsMap} {e : Xml} {items : List (Item C)} {kw r : List (Str × Val C F)}
    (h : getKwargs L true nss e (kidsOf g ks) items kw = .ok r) : getKwargsL L s nss e (lkidsOf f ks) items kw = .value r := by
  induction items generalizing kw with
  | nil => simp [getKwargs] at h; rw [← h]; rfl
  | cons it items ih =>
    simp only [getKwargs] at h
    simp only [getKwargsL, andThen_value]
    split at h
    · cases h
    · rename_i hv; exact ⟨_, tryNsL_quiet hfg hv, ih h⟩
    · rename_i v hv; exact ⟨_, tryNsL_quiet hfg hv, ih h⟩

theorem getKwargsL_loud (hfg : ∀ k ∈ ks, ∀ c ns nss v, f k c ns nss = .value v → g k c ns nss = .ok v)
    {nss : NsMap} {e : Xml} {items : List (Item C)} {kw r : List (Str × Val C F)}
    (hb : ∀ it ∈ items, it.get = .subBool → ∀ n ∈ e.kids, (∃ ns, n.tag = ns ++ it.node) → ∀ t b, strippedText n.text = some t →
      getBooleanValue F t false = some b → getBooleanValue F t true = some b)
    (h : getKwargsL L false nss e (lkidsOf f ks) items kw = .value r) : getKwargs L true nss e (kidsOf g ks) items kw = .ok r := by
  induction items generalizing kw with
  | nil => rw [← value_inj.mp h]; rfl
  | cons it items ih =>
    simp only [getKwargsL, andThen_value] at h
    obtain ⟨o, h1, h2⟩ := h
    simp only [getKwargs, tryNsL_loud hfg (hb it (by simp)) h1]
    cases o with
    | none => exact ih (fun it hit => hb it (by simp [hit])) h2
    | some v => exact ih (fun it hit => hb it (by simp [hit])) h2

end

/-- **C82.** What strict reading accepts is read without a record in the log, by strict and by
lenient reading. -/
theorem C82_quiet (L : Lib C) (strict : Bool) (e : Xml) : ∀ (c : C) (ns : Str) (nss : NsMap) (v : Val C F),
    parse L true e c ns nss = .ok v → (parseL (F := F) L strict e c ns nss).log = [] := by
  suffices h : ∀ (c : C) (ns : Str) (nss : NsMap) (v : Val C F), parse L true e c ns nss = .ok v → parseL (F := F) L strict e c ns nss = .value v from
    fun c ns nss v hv => by rw [h c ns nss v hv]; rfl
  induction e using Xml.ind with
  | h t a x ks ih =>
    intro c ns nss v h
    rw [parse_eq] at h
    rw [parseL_eq]
    unfold parseStep at h
    unfold parseStepL
    split at h
    · cases h
    · rename_i kw hkw
      rw [andThen_value]
      exact ⟨kw, getKwargsL_quiet (fun k hk => ih k hk) hkw, by rw [h]; rfl⟩

/-! ## Strict reading -/

/-- Nothing is logged, or one record before the exception. -/
def Logged.Once {α : Type} (x : Logged α) : Prop := x.log = [] ∨ ∃ r, x = ⟨[r], .error .parseError⟩

theorem once_value {α : Type} (a : α) : (Logged.value a).Once := Or.inl rfl

theorem once_raise {α : Type} (e : Err) : (Logged.raise (α := α) e).Once := Or.inl rfl

theorem Logged.Once.andThen {α β : Type} {x : Logged α} {f : α → Logged β} (h : x.Once) (hf : ∀ a, (f a).Once) : (x.andThen f).Once := by
  rcases x with ⟨l, r⟩
  rcases h with rfl | ⟨q, h⟩
  · cases r with
    | error e => exact Or.inl rfl
    | ok a =>
      rcases hf a with h | ⟨q, h⟩
      · exact Or.inl (by simpa [Logged.andThen] using h)
      · exact Or.inr ⟨q, by simp [Logged.andThen, h]⟩
  · cases h
    exact Or.inr ⟨q, rfl⟩

theorem once_handle {α : Type} {ex : Str} {n e : Xml} {k : Logged α} : (handleErrorL true ex n e k).Once := once_raise _

theorem once_after {α : Type} {conv : Str → Option α} {pre : Str → List Record} {ex t : Str} {n e : Xml}
    (hp : (pre t).length ≤ 1) (hc : ∀ a, conv t = some a → pre t = []) :
    (Logged.after (pre t) (match conv t with
      | some a => .value (some a)
      | none => handleErrorL true ex n e (.value none))).Once := by
  cases h : conv t with
  | some a => rw [hc a h]; exact Or.inl rfl
  | none =>
    match hl : pre t, hp with
    | [], _ => exact Or.inl rfl
    | [r], _ => exact Or.inr ⟨r, rfl⟩

theorem getSubL_once {α : Type} {conv : Str → Option α} {pre : Str → List Record} {ex : Str} {e : Xml} {tag : Str}
    (hp : ∀ t, (pre t).length ≤ 1) (hc : ∀ t a, conv t = some a → pre t = []) : (getSubL pre conv ex e tag true).Once := by
  unfold getSubL
  split
  · exact once_value _
  · split
    · exact once_value _
    · exact once_after (hp _) (hc _)

theorem getAttrL_once {α : Type} {conv : Str → Option α} {pre : Str → List Record} {ex : Str} {e : Xml} {key : Str}
    (hp : ∀ t, (pre t).length ≤ 1) (hc : ∀ t a, conv t = some a → pre t = []) : (getAttrL pre conv ex e key true).Once := by
  unfold getAttrL
  split
  · exact once_value _
  · exact once_after (hp _) (hc _)

theorem getDtsL_once {g : Str → Option (Date × Time)} {e : Xml} {ns : List Xml} : (getDtsL g true e ns).Once := by
  induction ns with
  | nil => exact once_value _
  | cons n ns ih =>
    unfold getDtsL
    split
    · exact once_raise _
    · split
      · exact ih.andThen fun _ => once_value _
      · exact once_handle

theorem getCoordArgsL_once {e : Xml} {ns : List Xml} : (getCoordArgsL (F := F) true e ns).Once := by
  induction ns with
  | nil => exact once_value _
  | cons n ns ih =>
    unfold getCoordArgsL
    split
    · exact ih
    · split
      · exact ih
      · split
        · exact ih.andThen fun _ => once_value _
        · exact once_handle

theorem getCoordinatesL_once {e : Xml} : (getCoordinatesL (F := F) e true).Once := by
  unfold getCoordinatesL
  split
  · exact once_value _
  · split
    · exact once_value _
    · exact Or.inr ⟨_, rfl⟩

theorem Logged.Once.wrap {α : Type} {f : α → Val C F} {x : Logged (Option α)} (h : x.Once) : (Logged.wrap f x).Once := by
  rcases h with h | ⟨r, rfl⟩
  · exact Or.inl h
  · exact Or.inr ⟨r, rfl⟩

theorem Logged.Once.nonEmpty {α : Type} {x : Logged (List α)} (h : x.Once) : (Logged.nonEmpty x).Once := by
  rcases h with h | ⟨r, rfl⟩
  · exact Or.inl h
  · exact Or.inr ⟨r, rfl⟩

theorem enumLog_once (en : EnumId) (t : Str) : (enumLog en t).length ≤ 1 := by
  unfold enumLog
  split
  · simp
  · split <;> simp

section
variable {L : Lib C} {f : Xml → C → Str → NsMap → Logged (Val C F)} {ks : List Xml}

theorem getXmlSubL_once (hf : ∀ k ∈ ks, ∀ c ns nss, (f k c ns nss).Once) {ns : Str} {nss : NsMap} {cs : List (PyType C)} :
    (getXmlSubL L (lkidsOf f ks) ns nss cs).Once := by
  induction cs with
  | nil => exact once_value _
  | cons c cs ih =>
    cases c with
    | cls c =>
      simp only [getXmlSubL, find_lkidsOf]
      cases hk : ks.find? (fun k => decide (k.tag = ns ++ (L.info c).tag)) with
      | none => exact ih
      | some k => exact (hf k (List.mem_of_find?_eq_some hk) _ _ _).andThen fun _ => once_value _
    | _ => exact once_raise _

theorem readAllL_once (hf : ∀ k ∈ ks, ∀ c ns nss, (f k c ns nss).Once) {c : C} {ns : Str} {nss : NsMap} :
    (readAllL c ns nss (lkidsOf f ks)).Once := by
  induction ks with
  | nil => exact once_value _
  | cons k ks ih =>
    simp only [lkidsOf, List.map_cons, readAllL]
    exact (hf k (by simp) _ _ _).andThen fun _ => (ih fun k hk => hf k (by simp [hk])).andThen fun _ => once_value _

theorem getXmlSubListL_once (hf : ∀ k ∈ ks, ∀ c ns nss, (f k c ns nss).Once) {ns : Str} {nss : NsMap} {cs : List (PyType C)} :
    (getXmlSubListL L (lkidsOf f ks) ns nss cs).Once := by
  induction cs with
  | nil => exact once_value _
  | cons c cs ih =>
    cases c with
    | cls c =>
      simp only [getXmlSubListL, filter_lkidsOf]
      exact (readAllL_once fun k hk => hf k (List.mem_filter.mp hk).1).andThen fun _ => ih.andThen fun _ => once_value _
    | _ => exact once_raise _

theorem getKwargL_once (hf : ∀ k ∈ ks, ∀ c ns nss, (f k c ns nss).Once) {it : Item C} {ns : Str} {nss : NsMap} {e : Xml} :
    (getKwargL L it true ns nss e (lkidsOf f ks)).Once := by
  have hn : ∀ t, (noLog t).length ≤ 1 := fun _ => by simp [noLog]
  have he : ∀ en t a, getEnumValue en t true = some a → enumLog en t = [] := fun en t a h => (enumLog_nil.mp h).1
  unfold getKwargL
  cases it.get <;> simp only
  case subBool => split
                  · exact (getSubL_once hn fun _ _ _ => rfl).wrap
                  · exact once_raise _
  case subEnum => split
                  · exact (getSubL_once (enumLog_once _) (he _)).wrap
                  · exact once_raise _
  case attrEnum => split
                   · exact (getAttrL_once (enumLog_once _) (he _)).wrap
                   · exact once_raise _
  case xmlSub => exact getXmlSubL_once hf
  case xmlSubList => exact (getXmlSubListL_once hf).andThen fun _ => once_value _
  case nodeText => exact once_value _
  case subText => exact once_value _
  case attrText => exact once_value _
  case subInt => exact (getSubL_once hn fun _ _ _ => rfl).wrap
  case attrInt => exact Or.inl rfl
  case subFloat => exact (getSubL_once hn fun _ _ _ => rfl).wrap
  case attrFloat => exact (getAttrL_once hn fun _ _ _ => rfl).wrap
  case subDt => exact (getSubL_once hn fun _ _ _ => rfl).wrap
  case subDtList => exact getDtsL_once.nonEmpty.wrap
  case coordsList => exact getCoordArgsL_once.nonEmpty.wrap
  case coordinates => exact getCoordinatesL_once.wrap

theorem tryNsL_once (hf : ∀ k ∈ ks, ∀ c ns nss, (f k c ns nss).Once) {it : Item C} {nss : NsMap} {e : Xml} {ids : List Str} :
    (tryNsL L it true nss e (lkidsOf f ks) ids).Once := by
  induction ids with
  | nil => exact once_value _
  | cons id ids ih =>
    refine (getKwargL_once hf).andThen fun r => ?_
    cases r with
    | none => exact ih
    | some v => exact once_value _

theorem getKwargsL_once (hf : ∀ k ∈ ks, ∀ c ns nss, (f k c ns nss).Once) {nss : NsMap} {e : Xml} {items : List (Item C)}
    {kw : List (Str × Val C F)} : (getKwargsL L true nss e (lkidsOf f ks) items kw).Once := by
  induction items generalizing kw with
  | nil => exact once_value _
  | cons it items ih =>
    refine (tryNsL_once hf).andThen fun r => ?_
    cases r with
    | none => exact ih
    | some v => exact ih

end

/-- **C82, strict.** Strict reading logs at most one record, and then raises
`KMLParseError`. -/
theorem C82_strict (L : Lib C) (e : Xml) (c : C) (ns : Str) (nss : NsMap) :
    (parseL (F := F) L true e c ns nss).log.length ≤ 1 ∧
      ((parseL (F := F) L true e c ns nss).log ≠ [] → parse (F := F) L true e c ns nss = .error .parseError) := by
  have key : ∀ c ns nss, (parseL (F := F) L true e c ns nss).Once := by
    induction e using Xml.ind with
    | h t a x ks ih =>
      intro c ns nss
      rw [parseL_eq]
      exact (getKwargsL_once fun k hk => ih k hk).andThen fun _ => Or.inl rfl
  rw [← C82_result]
  rcases key c ns nss with h | ⟨r, h⟩
  · rw [h]
    exact ⟨by simp, fun h => absurd rfl h⟩
  · rw [h]
    exact ⟨by simp, fun _ => rfl⟩

/-- A record of strict reading. -/
example : (parseL (F := Fix) fastkml true (.mk (s% "{http://www.opengis.net/kml/2.2}Point") [] none
    [.mk (s% "{http://www.opengis.net/kml/2.2}coordinates") [] (some (s% "1,x")) []]) .Point
      (s% "{http://www.opengis.net/kml/2.2}") []).log.length = 1 := by decide +kernel

/-- What is read leniently without a record is accepted by strict reading, if the texts of
booleans are. -/
theorem loud (L : Lib C) (e : Xml) : ∀ (c : C) (ns : Str) (nss : NsMap) (v : Val C F),
    (∀ d, Spec.Sub e d → ∀ c, ∀ it ∈ L.itemsOf c, it.get = .subBool → ∀ n ∈ d.kids, (∃ ns, n.tag = ns ++ it.node) →
      ∀ t b, strippedText n.text = some t → getBooleanValue F t false = some b → getBooleanValue F t true = some b) →
    parseL (F := F) L false e c ns nss = .value v → parse L true e c ns nss = .ok v := by
  induction e using Xml.ind with
  | h t a x ks ih =>
    intro c ns nss v hb h
    rw [parseL_eq] at h
    rw [parse_eq]
    unfold parseStepL at h
    unfold parseStep
    simp only [Xml.kids]
    obtain ⟨kw, h1, h2⟩ := andThen_value.mp h
    rw [getKwargsL_loud (g := parse L true) (fun k hk c ns nss v hv => ih k hk c ns nss v (fun d hd => hb d (.kid hk hd)) hv)
      (fun it hit => hb _ (.refl _) c it hit) h1]
    simpa [Logged.value] using h2


private theorem sub_kid {e d n : Xml} (h : Spec.Sub e d) (hn : n ∈ d.kids) : Spec.Sub e n := by
  induction h with
  | refl e => exact .kid hn (.refl _)
  | kid hk _ ih => exact .kid hk (ih hn)

private theorem boolean_names : ∀ c : Cls, ∀ it ∈ fastkml.itemsOf c, it.get = .subBool → it.node ∈ Spec.booleanNames := by
  have h : ∀ c ∈ Cls.all, ∀ it ∈ fastkml.itemsOf c, it.get = .subBool → it.node ∈ Spec.booleanNames := by decide +kernel
  exact fun c => h c (Cls.mem_all c)

private theorem plain_boolean {t : Str} {b : Bool} (ht : t ∈ [[], s% "0", s% "1", s% "true", s% "false"])
    (h : getBooleanValue F t false = some b) (h0 : t ≠ []) : getBooleanValue F t true = some b := by
  simp only [List.mem_cons, List.not_mem_nil, or_false] at ht
  rcases ht with rfl | rfl | rfl | rfl | rfl
  · exact absurd rfl h0
  all_goals exact h

/-- **C82.** If lenient reading logs nothing, then strict reading accepts the element, with
the same result; provided that booleans are written as such (see `C82_boolean`). -/
theorem C82_silent (e : Xml) (c : Cls) (ns : Str) (nss : NsMap) (v : Val Cls F) (hb : Spec.PlainBooleans e)
    (h : parse fastkml false e c ns nss = .ok v) (hl : (parseL (F := F) fastkml false e c ns nss).log = []) :
    parse fastkml true e c ns nss = .ok v := by
  refine loud fastkml e c ns nss v (fun d hd c it hit hg n hn ht t b hs hv => ?_) ?_
  · rw [strippedText, cleanString_trimmed] at hs
    cases hx : n.text with
    | none => rw [hx] at hs; cases hs
    | some x =>
      rw [hx] at hs
      simp only [Spec.trimmed] at hs
      split at hs
      · cases hs
      · rename_i h0
        cases hs
        exact plain_boolean (hb n (sub_kid hd hn) it.node (boolean_names c it hit hg) ht x hx) hv h0
  · have := C82_result (F := F) fastkml false e c ns nss
    rw [h] at this
    cases hp : parseL (F := F) fastkml false e c ns nss with
    | mk l r => rw [hp] at hl this; simp only at hl this; rw [hl, this]; rfl

/-! ## Every value that is dropped is reported -/

theorem log_andThen {α β : Type} (x : Logged α) (f : α → Logged β) {r : Record} (h : r ∈ x.log) : r ∈ (x.andThen f).log := by
  unfold Logged.andThen
  cases x.res with
  | error e => exact h
  | ok a => exact List.mem_append_left _ h

theorem log_andThen_right {α β : Type} {x : Logged α} {f : α → Logged β} {a : α} (hx : x.res = .ok a) {r : Record} (h : r ∈ (f a).log) :
    r ∈ (x.andThen f).log := by
  unfold Logged.andThen
  rw [hx]
  exact List.mem_append_right _ h

theorem andThen_ok {α β : Type} {x : Logged α} {f : α → Logged β} {b : β} (h : (x.andThen f).res = .ok b) : ∃ a, x.res = .ok a ∧ (f a).res = .ok b := by
  rw [andThen_res] at h
  cases hx : x.res with
  | error e => rw [hx] at h; cases h
  | ok a => rw [hx] at h; exact ⟨a, rfl, h⟩

theorem log_items {L : Lib C} {strict : Bool} {nss : NsMap} {e : Xml} {kids : List (LKid C F)} {items : List (Item C)} {kw r : List (Str × Val C F)}
    (h : (getKwargsL L strict nss e kids items kw).res = .ok r) {it : Item C} (hit : it ∈ items) {x : Record}
    (hx : x ∈ (tryNsL L it strict nss e kids it.nsIds).log) : x ∈ (getKwargsL L strict nss e kids items kw).log := by
  induction items generalizing kw with
  | nil => cases hit
  | cons i items ih =>
    simp only [getKwargsL] at h ⊢
    rcases List.mem_cons.mp hit with rfl | hit
    · exact log_andThen _ _ hx
    · obtain ⟨o, h1, h2⟩ := andThen_ok h
      refine log_andThen_right h1 ?_
      cases o with
      | none => exact ih h2 hit
      | some v => exact ih h2 hit

theorem log_ns {L : Lib C} {it : Item C} {strict : Bool} {nss : NsMap} {e : Xml} {kids : List (LKid C F)} {pre post : List Str} {id : Str}
    (hpre : ∀ i ∈ pre, (getKwargL L it strict (nsGet nss i) nss e kids).res = .ok none) {x : Record}
    (hx : x ∈ (getKwargL L it strict (nsGet nss id) nss e kids).log) : x ∈ (tryNsL L it strict nss e kids (pre ++ id :: post)).log := by
  induction pre with
  | nil => exact log_andThen _ _ hx
  | cons i pre ih =>
    simp only [List.cons_append, tryNsL]
    exact log_andThen_right (hpre i (by simp)) (ih fun j hj => hpre j (by simp [hj]))

theorem items_ok {L : Lib C} {strict : Bool} {nss : NsMap} {e : Xml} {kids : List (Kid C F)} {items : List (Item C)} {kw r : List (Str × Val C F)}
    (h : getKwargs L strict nss e kids items kw = .ok r) {it : Item C} (hit : it ∈ items) : ∃ o, tryNs L it strict nss e kids it.nsIds = .ok o := by
  induction items generalizing kw with
  | nil => cases hit
  | cons i items ih =>
    simp only [getKwargs] at h
    split at h
    · cases h
    · rename_i hv
      rcases List.mem_cons.mp hit with rfl | hit
      · exact ⟨_, hv⟩
      · exact ih h hit
    · rename_i hv
      rcases List.mem_cons.mp hit with rfl | hit
      · exact ⟨_, hv⟩
      · exact ih h hit

theorem ns_ok {L : Lib C} {it : Item C} {strict : Bool} {nss : NsMap} {e : Xml} {kids : List (Kid C F)} {pre post : List Str} {id : Str}
    (hpre : ∀ i ∈ pre, getKwarg L it strict (nsGet nss i) nss e kids = .ok none) {o : Option (Val C F)}
    (h : tryNs L it strict nss e kids (pre ++ id :: post) = .ok o) : ∃ o, getKwarg L it strict (nsGet nss id) nss e kids = .ok o := by
  induction pre with
  | nil =>
    simp only [List.nil_append, tryNs] at h
    cases hg : getKwarg L it strict (nsGet nss id) nss e kids with
    | error e => rw [hg] at h; cases h
    | ok o => exact ⟨o, rfl⟩
  | cons i pre ih =>
    simp only [List.cons_append, tryNs, hpre i (by simp)] at h
    exact ih (fun j hj => hpre j (by simp [hj])) h

/-- A record that one of the items writes is in the log. -/
theorem log_read {L : Lib C} {strict : Bool} {e : Xml} {c : C} {ns : Str} {nss : NsMap} {v : Val C F}
    (h : parse L strict e c ns nss = .ok v) {it : Item C} (hit : it ∈ L.itemsOf c) {pre post : List Str} {id : Str}
    (hids : it.nsIds = pre ++ id :: post)
    (hpre : ∀ i ∈ pre, getKwarg L it strict (nsGet (mergeNs nss) i) (mergeNs nss) e (kidsOf (parse (F := F) L strict) e.kids) = .ok none)
    {x : Record} (hx : ∀ o, getKwarg L it strict (nsGet (mergeNs nss) id) (mergeNs nss) e (kidsOf (parse (F := F) L strict) e.kids) = .ok o →
      x ∈ (getKwargL L it strict (nsGet (mergeNs nss) id) (mergeNs nss) e (lkidsOf (parseL (F := F) L strict) e.kids)).log) :
    x ∈ (parseL (F := F) L strict e c ns nss).log := by
  have key := fun it strict ns nss => getKwargL_res (L := L) (f := parseL (F := F) L strict) (g := parse L strict) (ks := e.kids)
    (fun k _ c ns nss => C82_result L strict k c ns nss) it strict ns nss e
  have hres := C82_result (F := F) L strict e c ns nss
  rw [h] at hres
  rw [parseL_eq] at hres ⊢
  unfold parseStepL at hres ⊢
  obtain ⟨kw, h1, _⟩ := andThen_ok hres
  refine log_andThen _ _ (log_items h1 hit ?_)
  rw [getKwargsL_res (g := parse L strict) (fun k _ c ns nss => C82_result L strict k c ns nss)] at h1
  obtain ⟨o, ho⟩ := items_ok h1 hit
  rw [hids] at ho ⊢
  obtain ⟨o', ho'⟩ := ns_ok hpre ho
  refine log_ns (fun i hi => ?_) (hx o' ho')
  rw [key]
  exact hpre i hi

theorem log_getSub {α : Type} {pre : Str → List Record} {conv : Str → Option α} {ex : Str} {e n : Xml} {tag t : Str}
    (hn : e.find tag = some n) (ht : strippedText n.text = some t) (hc : conv t = none) :
    .dropped ex n e ∈ (getSubL pre conv ex e tag false).log := by
  unfold getSubL
  simp only [hn, ht, hc]
  simp [Logged.after, handleErrorL]

theorem log_getAttr {α : Type} {pre : Str → List Record} {conv : Str → Option α} {ex : Str} {e : Xml} {tag t : Str}
    (ht : getAttrText e tag = some t) (hc : conv t = none) :
    .dropped ex e e ∈ (getAttrL pre conv ex e tag false).log := by
  unfold getAttrL
  simp only [ht, hc]
  simp [Logged.after, handleErrorL]

private theorem log_scalar {L : Lib C} {it : Item C} {ns : Str} {nss : NsMap} {e : Xml} {kids : List (LKid C F)} {t : Str}
    (hs : Spec.scalar it.get = true) (hc : classesOk it = true) (hi : it.get ≠ .attrInt)
    (ht : Spec.itemText it ns e = some t) (hd : Spec.denotes (F := F) (C := C) false it t = none) :
    ∃ n, (Spec.place it.get = .attr ∧ n = e ∨ Spec.place it.get = .child ∧ e.find (ns ++ it.node) = some n ∧ Spec.trimmed n.text = some t) ∧
      .dropped (Spec.expected it.get) n e ∈ (getKwargL L it false ns nss e kids).log := by
  have child : Spec.place it.get = .child → ∃ n, e.find (ns ++ it.node) = some n ∧ Spec.trimmed n.text = some t ∧ strippedText n.text = some t := by
    intro hp
    simp only [Spec.itemText, hp, Spec.childText] at ht
    cases hf : e.kids.find? (fun k => decide (k.tag = ns ++ it.node)) with
    | none => rw [hf] at ht; cases ht
    | some n => rw [hf] at ht; exact ⟨n, hf, ht, by rw [strippedText, cleanString_trimmed]; exact ht⟩
  have attr : Spec.place it.get = .attr → getAttrText e (ns ++ it.node) = some t := by
    intro hp
    simp only [Spec.itemText, hp] at ht
    unfold getAttrText Xml.get
    cases hf : dget (ns ++ it.node) e.attrs with
    | none => rw [hf] at ht; cases ht
    | some x =>
      rw [hf] at ht
      simp only [Spec.given] at ht ⊢
      cases x with
      | nil => simp at ht
      | cons c r => simpa using ht
  unfold getKwargL
  cases hg : it.get <;> simp only [hg, Spec.denotes, Spec.scalar, Spec.place, classesOk, Spec.expected] at hd hs hc child attr hi ⊢
  case nodeText => cases hd
  case subText => cases hd
  case attrText => cases hd
  case attrInt => exact absurd rfl hi
  case subBool =>
    obtain ⟨n, h1, h2, h3⟩ := child trivial
    refine ⟨n, .inr ⟨by trivial, h1, h2⟩, ?_⟩
    split
    · exact log_getSub (conv := fun t => getBooleanValue F t false) h1 h3 (by simpa using hd)
    · simp_all
  case subEnum =>
    obtain ⟨n, h1, h2, h3⟩ := child trivial
    refine ⟨n, .inr ⟨by trivial, h1, h2⟩, ?_⟩
    split
    · rename_i hcls
      simp only [hcls] at hd
      exact log_getSub (conv := fun t => getEnumValue _ t false) h1 h3 (by simpa using hd)
    · simp_all
  case attrEnum =>
    refine ⟨e, .inl ⟨by trivial, rfl⟩, ?_⟩
    split
    · rename_i hcls
      simp only [hcls] at hd
      exact log_getAttr (conv := fun t => getEnumValue _ t false) (attr trivial) (by simpa using hd)
    · simp_all
  case attrFloat => exact ⟨e, .inl ⟨by trivial, rfl⟩, log_getAttr (attr trivial) (by simpa using hd)⟩
  case subInt | subFloat | subDt =>
    obtain ⟨n, h1, h2, h3⟩ := child trivial
    exact ⟨n, .inr ⟨by trivial, h1, h2⟩, log_getSub h1 h3 (by simpa using hd)⟩
  all_goals cases hs

/-- **C82.** A value of a scalar attribute that is dropped is reported: if a text is refused
(and there is no valid one in a namespace that is looked at before), then there is a record
that shows it. -/
theorem C82_dropped (e : Xml) (c : Cls) (ns : Str) (nss : NsMap) (v : Val Cls F) (h : parse fastkml false e c ns nss = .ok v)
    (it : Item Cls) (hit : it ∈ fastkml.itemsOf c) (hs : Spec.scalar it.get = true) (hi : it.get ≠ .attrInt)
    (pre post : List Str) (id t : Str) (hids : it.nsIds = pre ++ id :: post)
    (hpre : ∀ i ∈ pre, ∀ s, Spec.itemText it (nsGet (mergeNs nss) i) e = some s → Spec.denotes (F := F) (C := Cls) false it s = none)
    (ht : Spec.itemText it (nsGet (mergeNs nss) id) e = some t) (hd : Spec.denotes (F := F) (C := Cls) false it t = none) :
    ∃ n, (Spec.place it.get = .attr ∧ n = e ∨
        Spec.place it.get = .child ∧ e.find (nsGet (mergeNs nss) id ++ it.node) = some n ∧ Spec.trimmed n.text = some t) ∧
      .dropped (Spec.expected it.get) n e ∈ (parseL (F := F) fastkml false e c ns nss).log := by
  have hc := (fastkml_readOk c).classes it hit
  obtain ⟨n, hn, hx⟩ := log_scalar (L := fastkml) (nss := mergeNs nss) (kids := lkidsOf (parseL (F := F) fastkml false) e.kids) hs hc hi ht hd
  refine ⟨n, hn, log_read h hit hids (fun i hi' => ?_) (fun _ _ => hx)⟩
  rw [getKwarg_scalar hs hc]
  cases hx : Spec.itemText it (nsGet (mergeNs nss) i) e with
  | none => rfl
  | some s =>
    have := hpre i hi' s hx
    unfold scalarResult
    simp only [this]
    cases hg : it.get <;> simp_all [handleError]

private theorem wrap_res {α : Type} {w : α → Val C F} {x : Except Err (Option α)} {o : Option (Val C F)} (h : wrap w x = .ok o) : ∃ a, x = .ok a := by
  cases x with
  | error e => cases h
  | ok a => exact ⟨a, rfl⟩

private theorem nonEmpty_res {α : Type} {x : Except Err (List α)} {o : Option (List α)} (h : nonEmptyList x = .ok o) : ∃ a, x = .ok a := by
  cases x with
  | error e => cases h
  | ok a => exact ⟨a, rfl⟩

private theorem log_dts {g : Str → Option (Date × Time)} {e k : Xml} {ks : List Xml} {r : List (Option KmlDateTime)} {t : Str}
    (h : getDts g false ks = .ok r) (hk : k ∈ ks) (ht : k.text = some t) (hp : KmlDateTime.parse g t = none) :
    .dropped (s% "DateTime") k e ∈ (getDtsL g false e ks).log := by
  induction ks generalizing r with
  | nil => cases hk
  | cons n ks ih =>
    simp only [getDts, getDtsL] at h ⊢
    cases hn : n.text with
    | none => rw [hn] at h; cases h
    | some s =>
      rw [hn] at h
      simp only at h ⊢
      rcases List.mem_cons.mp hk with rfl | hk
      · rw [hn] at ht
        cases ht
        simp [hp, handleErrorL, Logged.after]
      · cases hs : KmlDateTime.parse g s with
        | some d =>
          rw [hs] at h
          simp only at h ⊢
          split at h
          · cases h
          · rename_i hr; exact log_andThen _ _ (ih hr hk)
        | none =>
          rw [hs] at h
          simp only [handleError, Bool.false_eq_true, if_false] at h
          simp only [handleErrorL, Bool.false_eq_true, if_false, Logged.after]
          exact List.mem_append_right _ (ih h hk)

private theorem log_coordArgs {e k : Xml} {ks : List Xml} {r : List (Pt F)} {t : Str}
    (h : getCoordArgs false ks = .ok r) (hk : k ∈ ks) (ht : k.text = some t) (hp : floatsOf (F := F) (splitWs t) = none) :
    .dropped (s% "Coordinates") k e ∈ (getCoordArgsL (F := F) false e ks).log := by
  have h0 : ∀ t : Str, floatsOf (F := F) (splitWs t) = none → t.isEmpty = false := by
    intro t h
    cases t with
    | nil => simp [splitWs, splitWsAux, floatsOf] at h
    | cons c r => rfl
  induction ks generalizing r with
  | nil => cases hk
  | cons n ks ih =>
    simp only [getCoordArgs, getCoordArgsL] at h ⊢
    rcases List.mem_cons.mp hk with rfl | hk
    · simp [ht, hp, h0 t hp, handleErrorL, Logged.after]
    · cases hn : n.text with
      | none => rw [hn] at h; exact ih h hk
      | some s =>
        rw [hn] at h
        simp only at h ⊢
        split at h
        · rename_i he; rw [if_pos he]; exact ih h hk
        · rename_i he
          rw [if_neg he]
          cases hs : floatsOf (F := F) (splitWs s) with
          | some d =>
            rw [hs] at h
            simp only at h ⊢
            split at h
            · cases h
            · rename_i hr; exact log_andThen _ _ (ih hr hk)
          | none =>
            rw [hs] at h
            simp only [handleError, Bool.false_eq_true, if_false] at h
            simp only [handleErrorL, Bool.false_eq_true, if_false, Logged.after]
            exact List.mem_append_right _ (ih h hk)

/-- **C82.** Each row of a track that is dropped is reported: a `when` that is no time, a
`gx:coord` or `gx:angles` that is not a list of numbers. -/
theorem C82_rows (L : Lib C) (e : Xml) (c : C) (ns : Str) (nss : NsMap) (v : Val C F) (h : parse L false e c ns nss = .ok v)
    (it : Item C) (hit : it ∈ L.itemsOf c) (pre post : List Str) (id : Str) (hids : it.nsIds = pre ++ id :: post)
    (hpre : ∀ i ∈ pre, e.findall (nsGet (mergeNs nss) i ++ it.node) = [])
    (k : Xml) (hk : k ∈ e.kids) (htag : k.tag = nsGet (mergeNs nss) id ++ it.node) (t : Str) (ht : k.text = some t) :
    (it.get = .subDtList → KmlDateTime.parse (PyExt.arrowGet F) t = none → .dropped (s% "DateTime") k e ∈ (parseL (F := F) L false e c ns nss).log) ∧
      (it.get = .coordsList → floatsOf (F := F) (splitWs t) = none → .dropped (s% "Coordinates") k e ∈ (parseL (F := F) L false e c ns nss).log) := by
  have hk' : k ∈ e.findall (nsGet (mergeNs nss) id ++ it.node) := by
    unfold Xml.findall
    exact List.mem_filter.mpr ⟨hk, by simpa using htag⟩
  constructor <;> intro hg hp <;>
    refine log_read h hit hids (fun i hi => by unfold getKwarg; simp only [hg, hpre i hi]; rfl) (fun o ho => ?_) <;>
    unfold getKwarg at ho <;> unfold getKwargL <;> simp only [hg] at ho ⊢ <;>
    obtain ⟨a, ha⟩ := wrap_res ho <;> obtain ⟨l, hl⟩ := nonEmpty_res ha
  · exact log_dts hl hk' ht hp
  · exact log_coordArgs hl hk' ht hp

/-- **C82.** Coordinates that are dropped are reported. -/
theorem C82_coordinates (L : Lib C) (e : Xml) (c : C) (ns : Str) (nss : NsMap) (v : Val C F) (h : parse L false e c ns nss = .ok v)
    (it : Item C) (hit : it ∈ L.itemsOf c) (hg : it.get = .coordinates) (hids : it.nsIds ≠ []) (t : Str) (ht : e.text = some t)
    (hp : tuplesOf (F := F) (latlons t) = none) : .coordinates e ∈ (parseL (F := F) L false e c ns nss).log := by
  cases hn : it.nsIds with
  | nil => exact absurd hn hids
  | cons id post =>
    refine log_read h hit (pre := []) hn (by simp) (fun o ho => ?_)
    unfold getKwargL
    simp only [hg, Logged.wrap, getCoordinatesL, ht, hp, Logged.after]
    simp

private theorem log_all {f : Xml → C → Str → NsMap → Logged (Val C F)} {g : Xml → C → Str → NsMap → Except Err (Val C F)} {ks : List Xml}
    (hfg : ∀ k ∈ ks, ∀ c ns nss, (f k c ns nss).res = g k c ns nss) {c : C} {ns : Str} {nss : NsMap} {r : List (Val C F)}
    (h : readAll c ns nss (kidsOf g ks) = .ok r) {k : Xml} (hk : k ∈ ks) {x : Record} (hx : x ∈ (f k c ns nss).log) :
    x ∈ (readAllL c ns nss (lkidsOf f ks)).log := by
  induction ks generalizing r with
  | nil => cases hk
  | cons n ks ih =>
    simp only [lkidsOf, kidsOf, List.map_cons, readAllL, readAll] at h ⊢
    rcases List.mem_cons.mp hk with rfl | hk
    · exact log_andThen _ _ hx
    · split at h
      · cases h
      · rename_i v hv
        split at h
        · cases h
        · rename_i vs hvs
          refine log_andThen_right (a := v) (by rw [hfg n (by simp)]; exact hv) (log_andThen _ _ ?_)
          exact ih (fun k hk => hfg k (by simp [hk])) hvs hk

private theorem log_list {L : Lib C} {f : Xml → C → Str → NsMap → Logged (Val C F)} {g : Xml → C → Str → NsMap → Except Err (Val C F)} {ks : List Xml}
    (hfg : ∀ k ∈ ks, ∀ c ns nss, (f k c ns nss).res = g k c ns nss) {ns : Str} {nss : NsMap} {cs : List (PyType C)} {r : List (Val C F)}
    (h : getXmlSubList L (kidsOf g ks) ns nss cs = .ok r) {c : C} (hc : .cls c ∈ cs) {k : Xml} (hk : k ∈ ks)
    (ht : k.tag = ns ++ (L.info c).tag) {x : Record} (hx : x ∈ (f k c ns nss).log) : x ∈ (getXmlSubListL L (lkidsOf f ks) ns nss cs).log := by
  induction cs generalizing r with
  | nil => cases hc
  | cons d cs ih =>
    cases d with
    | cls d =>
      simp only [getXmlSubListL, getXmlSubList, filter_kidsOf, filter_lkidsOf] at h ⊢
      have hfg' : ∀ k ∈ ks.filter (fun k => decide (k.tag = ns ++ (L.info d).tag)), ∀ c ns nss, (f k c ns nss).res = g k c ns nss :=
        fun k hk => hfg k (List.mem_filter.mp hk).1
      split at h
      · cases h
      · rename_i vs hvs
        split at h
        · cases h
        · rename_i ws hws
          rcases List.mem_cons.mp hc with hd | hc
          · cases hd
            exact log_andThen _ _ (log_all hfg' hvs (List.mem_filter.mpr ⟨hk, by simpa using ht⟩) hx)
          · exact log_andThen_right (a := vs) (by rw [readAllL_res hfg']; exact hvs) (log_andThen _ _ (ih hws hc))
    | _ => simp [getXmlSubList] at h

/-- **C82.** What is logged for a member of a list is logged for the element. -/
theorem C82_members (L : Lib C) (e : Xml) (c : C) (ns : Str) (nss : NsMap) (v : Val C F) (h : parse L false e c ns nss = .ok v)
    (it : Item C) (hit : it ∈ L.itemsOf c) (hg : it.get = .xmlSubList) (id : Str) (post : List Str) (hids : it.nsIds = id :: post)
    (c' : C) (hc : .cls c' ∈ it.classes) (k : Xml) (hk : k ∈ e.kids) (ht : k.tag = nsGet (mergeNs nss) id ++ (L.info c').tag)
    (x : Record) (hx : x ∈ (parseL (F := F) L false k c' (nsGet (mergeNs nss) id) (mergeNs nss)).log) :
    x ∈ (parseL (F := F) L false e c ns nss).log := by
  refine log_read h hit (pre := []) hids (by simp) (fun o ho => ?_)
  unfold getKwarg at ho
  unfold getKwargL
  simp only [hg] at ho ⊢
  split at ho
  · cases ho
  · rename_i vs hvs
    exact log_andThen _ _ (log_list (fun k _ c ns nss => C82_result L false k c ns nss) hvs hc hk ht hx)

/-- **C82.** What is logged for the child that is read is logged for the element.  The child
is the first of its name; there is none with the name of a class before its own, and none
of any class in the namespaces before. -/
theorem C82_child (L : Lib C) (e : Xml) (c : C) (ns : Str) (nss : NsMap) (v : Val C F) (h : parse L false e c ns nss = .ok v)
    (it : Item C) (hit : it ∈ L.itemsOf c) (hg : it.get = .xmlSub) (pre post : List Str) (id : Str) (hids : it.nsIds = pre ++ id :: post)
    (before after : List C) (c' : C) (hcls : it.classes = (before ++ c' :: after).map .cls)
    (hpre : ∀ i ∈ pre, ∀ d ∈ before ++ c' :: after, e.find (nsGet (mergeNs nss) i ++ (L.info d).tag) = none)
    (hbefore : ∀ d ∈ before, e.find (nsGet (mergeNs nss) id ++ (L.info d).tag) = none)
    (k : Xml) (hk : e.find (nsGet (mergeNs nss) id ++ (L.info c').tag) = some k)
    (x : Record) (hx : x ∈ (parseL (F := F) L false k c' (nsGet (mergeNs nss) id) (mergeNs nss)).log) :
    x ∈ (parseL (F := F) L false e c ns nss).log := by
  refine log_read h hit hids (fun i hi => ?_) (fun o ho => ?_)
  · unfold getKwarg
    simp only [hg, hcls]
    have := hpre i hi
    generalize before ++ c' :: after = cs at this
    induction cs with
    | nil => rfl
    | cons d cs ih =>
      have hd := this d (by simp)
      unfold Xml.find at hd
      simp only [List.map_cons, getXmlSub, find_kidsOf, hd, Option.map_none]
      exact ih fun d hd => this d (by simp [hd])
  · unfold getKwargL
    simp only [hg, hcls]
    clear ho hcls hpre
    induction before with
    | nil =>
      unfold Xml.find at hk
      simp only [List.nil_append, List.map_cons, getXmlSubL, find_lkidsOf, hk, Option.map_some]
      exact log_andThen _ _ hx
    | cons d before ih =>
      have hd := hbefore d (by simp)
      unfold Xml.find at hd
      simp only [List.cons_append, List.map_cons, getXmlSubL, find_lkidsOf, hd, Option.map_none]
      exact ih fun d hd => hbefore d (by simp [hd])

/-! ## Every record is about a part of the document -/

private theorem of_andThen {α β : Type} {x : Logged α} {f : α → Logged β} {r : Record} (h : r ∈ (x.andThen f).log) :
    r ∈ x.log ∨ ∃ a, r ∈ (f a).log := by
  unfold Logged.andThen at h
  cases hx : x.res with
  | error e => rw [hx] at h; exact .inl h
  | ok a =>
    rw [hx] at h
    rcases List.mem_append.mp h with h | h
    · exact .inl h
    · exact .inr ⟨a, h⟩

private theorem of_handle {α : Type} {strict : Bool} {ex : Str} {n e : Xml} {k : Logged α} {r : Record} (h : r ∈ (handleErrorL strict ex n e k).log) :
    strict = false ∧ r = .dropped ex n e ∨ r ∈ k.log := by
  cases strict with
  | true => cases h
  | false => simpa [handleErrorL, Logged.after] using h

private theorem of_enum {en : EnumId} {t : Str} {r : Record} (h : r ∈ enumLog en t) :
    ∃ v, r = .relaxed en (lower t) v ∧ v ∈ en.values ∧ lower v = lower t ∧ t ≠ v := by
  unfold enumLog at h
  split at h
  · cases h
  · rename_i hn
    split at h
    · rename_i v hv
      have hm := List.mem_of_find?_eq_some hv
      exact ⟨v, by simpa using h, hm, by simpa using List.find?_some hv, fun he => hn (he ▸ hm)⟩
    · cases h

private theorem of_sub {α : Type} {pre : Str → List Record} {conv : Str → Option α} {ex : Str} {e : Xml} {tag : Str} {strict : Bool} {r : Record}
    (hpre : ∀ k ∈ e.kids, ∀ t, Spec.trimmed k.text = some t → ∀ r ∈ pre t, Spec.About strict e r)
    (h : r ∈ (getSubL pre conv ex e tag strict).log) : Spec.About strict e r := by
  unfold getSubL at h
  split at h
  · cases h
  · rename_i n hn
    have hm : n ∈ e.kids := List.mem_of_find?_eq_some hn
    split at h
    · cases h
    · rename_i t ht
      rw [strippedText, cleanString_trimmed] at ht
      rcases List.mem_append.mp h with h | h
      · exact hpre n hm t ht r h
      · split at h
        · cases h
        · rcases of_handle h with ⟨hs, rfl⟩ | h
          · exact ⟨hs, rfl, .inr hm⟩
          · cases h

private theorem of_attr {α : Type} {pre : Str → List Record} {conv : Str → Option α} {ex : Str} {e : Xml} {tag : Str} {strict : Bool} {r : Record}
    (hpre : ∀ a t, (a, t) ∈ e.attrs → ∀ r ∈ pre t, Spec.About strict e r)
    (h : r ∈ (getAttrL pre conv ex e tag strict).log) : Spec.About strict e r := by
  unfold getAttrL at h
  split at h
  · cases h
  · rename_i t ht
    have hm : (tag, t) ∈ e.attrs := by
      unfold getAttrText Xml.get at ht
      split at ht
      · cases ht
      · rename_i s hs
        split at ht
        · cases ht
        · cases ht; exact dget_mem hs
    rcases List.mem_append.mp h with h | h
    · exact hpre _ t hm r h
    · split at h
      · cases h
      · rcases of_handle h with ⟨hs, rfl⟩ | h
        · exact ⟨hs, rfl, .inl rfl⟩
        · cases h

private theorem of_dts {g : Str → Option (Date × Time)} {strict : Bool} {e : Xml} {ks : List Xml} {r : Record} (hk : ∀ k ∈ ks, k ∈ e.kids)
    (h : r ∈ (getDtsL g strict e ks).log) : Spec.About strict e r := by
  induction ks with
  | nil => cases h
  | cons n ks ih =>
    have ih := ih fun k h => hk k (by simp [h])
    simp only [getDtsL] at h
    split at h
    · cases h
    · split at h
      · rcases of_andThen h with h | ⟨_, h⟩
        · exact ih h
        · cases h
      · rcases of_handle h with ⟨hs, rfl⟩ | h
        · exact ⟨hs, rfl, .inr (hk n (by simp))⟩
        · exact ih h

private theorem of_coordArgs {strict : Bool} {e : Xml} {ks : List Xml} {r : Record} (hk : ∀ k ∈ ks, k ∈ e.kids)
    (h : r ∈ (getCoordArgsL (F := F) strict e ks).log) : Spec.About strict e r := by
  induction ks with
  | nil => cases h
  | cons n ks ih =>
    have ih := ih fun k h => hk k (by simp [h])
    simp only [getCoordArgsL] at h
    split at h
    · exact ih h
    · split at h
      · exact ih h
      · split at h
        · rcases of_andThen h with h | ⟨_, h⟩
          · exact ih h
          · cases h
        · rcases of_handle h with ⟨hs, rfl⟩ | h
          · exact ⟨hs, rfl, .inr (hk n (by simp))⟩
          · exact ih h

section
variable {L : Lib C} {f : Xml → C → Str → NsMap → Logged (Val C F)} {ks : List Xml}

private theorem of_xmlSub {ns : Str} {nss : NsMap} {cs : List (PyType C)} {r : Record} (h : r ∈ (getXmlSubL L (lkidsOf f ks) ns nss cs).log) :
    ∃ k ∈ ks, ∃ c, r ∈ (f k c ns nss).log := by
  induction cs with
  | nil => cases h
  | cons c cs ih =>
    cases c with
    | cls c =>
      simp only [getXmlSubL, find_lkidsOf] at h
      cases hk : ks.find? (fun k => decide (k.tag = ns ++ (L.info c).tag)) with
      | none => rw [hk] at h; exact ih h
      | some k =>
        rw [hk] at h
        rcases of_andThen h with h | ⟨_, h⟩
        · exact ⟨k, List.mem_of_find?_eq_some hk, c, h⟩
        · cases h
    | _ => cases h

private theorem of_all {c : C} {ns : Str} {nss : NsMap} {r : Record} (h : r ∈ (readAllL c ns nss (lkidsOf f ks)).log) :
    ∃ k ∈ ks, ∃ c, r ∈ (f k c ns nss).log := by
  induction ks with
  | nil => cases h
  | cons n ks ih =>
    simp only [lkidsOf, List.map_cons, readAllL] at h
    rcases of_andThen h with h | ⟨_, h⟩
    · exact ⟨n, by simp, c, h⟩
    · rcases of_andThen h with h | ⟨_, h⟩
      · obtain ⟨k, hk, h⟩ := ih h
        exact ⟨k, by simp [hk], h⟩
      · cases h

private theorem of_xmlSubList {ns : Str} {nss : NsMap} {cs : List (PyType C)} {r : Record} (h : r ∈ (getXmlSubListL L (lkidsOf f ks) ns nss cs).log) :
    ∃ k ∈ ks, ∃ c, r ∈ (f k c ns nss).log := by
  induction cs with
  | nil => cases h
  | cons c cs ih =>
    cases c with
    | cls c =>
      simp only [getXmlSubListL, filter_lkidsOf] at h
      rcases of_andThen h with h | ⟨_, h⟩
      · obtain ⟨k, hk, h⟩ := of_all h
        exact ⟨k, (List.mem_filter.mp hk).1, h⟩
      · rcases of_andThen h with h | ⟨_, h⟩
        · exact ih h
        · cases h
    | _ => cases h

private theorem of_kwarg {it : Item C} {strict : Bool} {ns : Str} {nss : NsMap} {e : Xml} {r : Record}
    (h : r ∈ (getKwargL L it strict ns nss e (lkidsOf f ks)).log) : Spec.About strict e r ∨ ∃ k ∈ ks, ∃ c, r ∈ (f k c ns nss).log := by
  have no : ∀ k ∈ e.kids, ∀ t, Spec.trimmed k.text = some t → ∀ r ∈ noLog t, Spec.About strict e r := fun _ _ _ _ _ h => by cases h
  have no' : ∀ a t, (a, t) ∈ e.attrs → ∀ r ∈ noLog t, Spec.About strict e r := fun _ _ _ _ h => by cases h
  have all : ∀ tag, ∀ k ∈ e.findall tag, k ∈ e.kids := fun tag k hk => (List.mem_filter.mp hk).1
  unfold getKwargL at h
  cases hg : it.get <;> simp only [hg, Logged.wrap, Logged.nonEmpty] at h
  case nodeText | subText | attrText => cases h
  case attrInt => cases h
  case subBool =>
    split at h
    · exact .inl (of_sub no h)
    · cases h
  case subEnum =>
    split at h
    · refine .inl (of_sub (fun k hk t ht r hr => ?_) h)
      obtain ⟨v, rfl, h1, h2, h3⟩ := of_enum hr
      exact ⟨h1, h2, t, rfl, h3, .inl ⟨k, hk, ht⟩⟩
    · cases h
  case attrEnum =>
    split at h
    · refine .inl (of_attr (fun a t ht r hr => ?_) h)
      obtain ⟨v, rfl, h1, h2, h3⟩ := of_enum hr
      exact ⟨h1, h2, t, rfl, h3, .inr ⟨a, ht⟩⟩
    · cases h
  case subInt => exact .inl (of_sub no h)
  case subFloat => exact .inl (of_sub no h)
  case subDt => exact .inl (of_sub no h)
  case attrFloat => exact .inl (of_attr no' h)
  case subDtList => exact .inl (of_dts (all _) h)
  case coordsList => exact .inl (of_coordArgs (all _) h)
  case coordinates =>
    left
    simp only [Logged.wrap, getCoordinatesL] at h
    split at h
    · cases h
    · split at h
      · cases h
      · cases strict <;> simp [Logged.after, Logged.raise, Logged.value] at h <;> subst h <;> exact rfl
  case xmlSub => exact .inr (of_xmlSub h)
  case xmlSubList =>
    rcases of_andThen h with h | ⟨_, h⟩
    · exact .inr (of_xmlSubList h)
    · cases h

private theorem of_ns {it : Item C} {strict : Bool} {nss : NsMap} {e : Xml} {ids : List Str} {r : Record}
    (h : r ∈ (tryNsL L it strict nss e (lkidsOf f ks) ids).log) : Spec.About strict e r ∨ ∃ k ∈ ks, ∃ c ns, r ∈ (f k c ns nss).log := by
  induction ids with
  | nil => cases h
  | cons id ids ih =>
    simp only [tryNsL] at h
    rcases of_andThen h with h | ⟨o, h⟩
    · rcases of_kwarg h with h | ⟨k, hk, c, h⟩
      · exact .inl h
      · exact .inr ⟨k, hk, c, _, h⟩
    · cases o with
      | none => exact ih h
      | some v => cases h

private theorem of_kwargs {strict : Bool} {nss : NsMap} {e : Xml} {items : List (Item C)} {kw : List (Str × Val C F)} {r : Record}
    (h : r ∈ (getKwargsL L strict nss e (lkidsOf f ks) items kw).log) : Spec.About strict e r ∨ ∃ k ∈ ks, ∃ c ns, r ∈ (f k c ns nss).log := by
  induction items generalizing kw with
  | nil => cases h
  | cons it items ih =>
    simp only [getKwargsL] at h
    rcases of_andThen h with h | ⟨o, h⟩
    · exact of_ns h
    · cases o with
      | none => exact ih h
      | some v => exact ih h

end

/-- **C82.** Every record is about the element that is read or one inside of it. -/
theorem C82_about (L : Lib C) (strict : Bool) (e : Xml) : ∀ (c : C) (ns : Str) (nss : NsMap),
    ∀ r ∈ (parseL (F := F) L strict e c ns nss).log, ∃ d, Spec.Sub e d ∧ Spec.About strict d r := by
  induction e using Xml.ind with
  | h t a x ks ih =>
    intro c ns nss r h
    rw [parseL_eq] at h
    unfold parseStepL at h
    rcases of_andThen h with h | ⟨_, h⟩
    · rcases of_kwargs h with h | ⟨k, hk, c', ns', h⟩
      · exact ⟨_, .refl _, h⟩
      · obtain ⟨d, hd, h⟩ := ih k hk c' ns' _ r h
        exact ⟨d, .kid hk hd, h⟩
    · cases h

/-! ## Findings and cases -/

private def visible (t : Str) : Xml := pmDoc [.mk (s% "{http://www.opengis.net/kml/2.2}visibility") [] (some t) []]

private def kml : Str := s% "{http://www.opengis.net/kml/2.2}"

/-- The records of reading an element of the class leniently, and whether it succeeds. -/
private def readLog (c : Cls) (e : Xml) : Option Err × List Record :=
  let x := parseL (F := Fix) fastkml false e c kml (mergeNs [])
  (errOf x.res, x.log)

/-- A boolean that strict reading refuses is accepted by lenient reading without a record. -/
theorem C82_boolean : errOf (fromElement (F := Fix) fastkml true .Placemark none [] (visible (s% "TRUE"))) = some .parseError ∧
    (readLog .Placemark (visible (s% "TRUE"))).1 = none ∧ (readLog .Placemark (visible (s% "TRUE"))).2 = [] := by
  refine ⟨by decide +kernel, by decide +kernel, List.length_eq_zero_iff.mp (by decide +kernel)⟩

/-- Coordinates that are not numbers are reported twice, once for each namespace of the
attribute, although the text is the same. -/
theorem C82_twice : (readLog .Point (.mk (s% "{http://www.opengis.net/kml/2.2}Point") [] none
    [.mk (s% "{http://www.opengis.net/kml/2.2}coordinates") [] (some (s% "1,x")) []])).2.length = 2 := by decide +kernel

/-- A dropped boolean, with one record; this is a case for `C82_dropped`. -/
example : (readLog .Placemark (visible (s% "maybe"))).1 = none ∧ (readLog .Placemark (visible (s% "maybe"))).2.length = 1 ∧
    Spec.denotes (F := Fix) (C := Cls) false ⟨[(s% "kml"), (s% "")], [.bool], (s% "visibility"), .subBool, .subBool, (s% "visibility"), .bool true⟩
      (s% "maybe") = none := ⟨by decide +kernel, by decide +kernel, rfl⟩
/-- A member of a list with a dropped value: a case for `C82_members`. -/
example : (readLog .Document (.mk (s% "{http://www.opengis.net/kml/2.2}Document") [] none [visible (s% "maybe")])).1 = none ∧
    (readLog .Document (.mk (s% "{http://www.opengis.net/kml/2.2}Document") [] none [visible (s% "maybe")])).2.length = 1 :=
  ⟨by decide +kernel, by decide +kernel⟩
/-- A child with a dropped value: a case for `C82_child`. -/
example : (readLog .Placemark (pmDoc [.mk (s% "{http://www.opengis.net/kml/2.2}Point") [] none
    [.mk (s% "{http://www.opengis.net/kml/2.2}extrude") [] (some (s% "maybe")) []]])).2.length = 1 := by decide +kernel
/-- Rows of a track: a case for `C82_rows`. -/
example : (readLog .Placemark (pmDoc [.mk (s% "{http://www.google.com/kml/ext/2.2}Track") [] none
    [.mk (s% "{http://www.opengis.net/kml/2.2}when") [] (some (s% "soon")) [],
     .mk (s% "{http://www.google.com/kml/ext/2.2}coord") [] (some (s% "1 2 x")) []]])).2.length = 2 := by decide +kernel
/-- An enumeration in the wrong case is accepted, with a record. -/
example : (readLog .Placemark (pmDoc [.mk (s% "{http://www.opengis.net/kml/2.2}Point") [] none
    [.mk (s% "{http://www.opengis.net/kml/2.2}altitudeMode") [] (some (s% "ABSOLUTE")) []]])).2.length = 1 := by decide +kernel
/-- `PlainBooleans` holds of ordinary documents. -/
example : Spec.PlainBooleans (visible (s% " 1 ")) := by
  intro d hd name _ _ t ht
  cases hd with
  | refl => cases ht
  | kid hk hd =>
    rcases List.mem_singleton.mp hk with rfl
    cases hd with
    | refl => cases ht; decide
    | kid hk _ => cases hk

end Verif
