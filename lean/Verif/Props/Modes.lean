import Verif.Lemmas.Read
import Verif.Lemmas.Construct
import Verif.ExtInst
import Verif.Classes

/-!
# C05, C06: strict and lenient reading
-/

set_option linter.unusedSectionVars false
set_option linter.unusedSimpArgs false

namespace Verif

variable {C F : Type} [DecidableEq C] [PyExt F]

/-! ## C05 Lenient reading extends strict reading -/

theorem boolValue_mono {t : Str} {b : Bool} (h : getBooleanValue F t true = some b) :
    getBooleanValue F t false = some b := by
  unfold getBooleanValue at h ⊢
  simp only [if_true, Bool.false_eq_true, if_false] at h ⊢
  split at h
  · rename_i h1
    simp at h; subst h
    rcases h1 with rfl | rfl <;> rfl
  · split at h
    · rename_i h1
      simp at h; subst h
      rcases h1 with rfl | rfl <;> rfl
    · cases h

theorem enumValue_mono {e : EnumId} {t v : Str} (h : getEnumValue e t true = some v) :
    getEnumValue e t false = some v := by
  unfold getEnumValue at h ⊢
  split at h
  · cases h
  · split at h
    · cases h
    · simpa using h

theorem getSub_mono {α : Type} {conv conv' : Str → Option α} {e : Xml} {tag : Str} {r : Option α}
    (hc : ∀ t a, conv t = some a → conv' t = some a) (h : getSub conv e tag true = .ok r) :
    getSub conv' e tag false = .ok r := by
  unfold getSub at h ⊢
  split at h <;> rename_i hf <;> try simp only
  · exact h
  · split at h <;> rename_i ht <;> try simp only [ht]
    · exact h
    · split at h
      · rename_i hct; rw [hc _ _ hct]; exact h
      · simp [handleError] at h

theorem getAttr_mono {α : Type} {conv conv' : Str → Option α} {e : Xml} {tag : Str} {r : Option α}
    (hc : ∀ t a, conv t = some a → conv' t = some a) (h : getAttr conv e tag true = .ok r) :
    getAttr conv' e tag false = .ok r := by
  unfold getAttr at h ⊢
  split at h <;> rename_i ht <;> try simp only [ht]
  · exact h
  · split at h
    · rename_i hct; rw [hc _ _ hct]; exact h
    · simp [handleError] at h

theorem wrap_mono {α : Type} {f : α → Val C F} {x y : Except Err (Option α)} {r : Option (Val C F)}
    (hxy : ∀ a, x = .ok a → y = .ok a) (h : wrap f x = .ok r) : wrap f y = .ok r := by
  cases x with
  | error e => simp [wrap] at h
  | ok a => rw [hxy a rfl]; exact h

theorem nonEmptyList_mono {α : Type} {x y : Except Err (List α)} {r : Option (List α)}
    (hxy : ∀ a, x = .ok a → y = .ok a) (h : nonEmptyList x = .ok r) : nonEmptyList y = .ok r := by
  cases x with
  | error e => simp [nonEmptyList] at h
  | ok a => rw [hxy a rfl]; exact h

theorem getDts_mono {g : Str → Option (Date × Time)} {ks : List Xml} {r : List (Option KmlDateTime)}
    (h : getDts g true ks = .ok r) : getDts g false ks = .ok r := by
  induction ks generalizing r with
  | nil => exact h
  | cons k ks ih =>
    simp only [getDts] at h ⊢
    split at h <;> rename_i ht <;> try simp only
    · cases h
    · split at h <;> rename_i hp <;> try simp only
      · split at h <;> rename_i hr
        · cases h
        · rw [ih hr]; exact h
      · simp [handleError] at h

theorem getCoordArgs_mono {ks : List Xml} {r : List (Pt F)}
    (h : getCoordArgs true ks = .ok r) : getCoordArgs false ks = .ok r := by
  induction ks generalizing r with
  | nil => exact h
  | cons k ks ih =>
    simp only [getCoordArgs] at h ⊢
    split at h <;> rename_i ht <;> try simp only
    · exact ih h
    · split at h <;> rename_i he
      · rw [if_pos he]; exact ih h
      · rw [if_neg he]
        split at h <;> rename_i hp <;> try simp only
        · split at h <;> rename_i hr
          · cases h
          · rw [ih hr]; exact h
        · simp [handleError] at h

theorem getCoordinates_mono {e : Xml} {r : Option (List (Pt F))}
    (h : getCoordinates e true = .ok r) : getCoordinates e false = .ok r := by
  unfold getCoordinates at h ⊢
  split at h <;> rename_i ht <;> try simp only
  · exact h
  · split at h <;> rename_i hp <;> try simp only
    · exact h
    · simp [handleError] at h

section
variable {L : Lib C} {f g : Xml → C → Str → NsMap → Except Err (Val C F)} {ks : List Xml}
  (hfg : ∀ k ∈ ks, ∀ c ns nss v, f k c ns nss = .ok v → g k c ns nss = .ok v)
include hfg

theorem getXmlSub_mono {ns : Str} {nss : NsMap} {cs : List (PyType C)} {r : Option (Val C F)}
    (h : getXmlSub L (kidsOf f ks) ns nss cs = .ok r) :
    getXmlSub L (kidsOf g ks) ns nss cs = .ok r := by
  induction cs with
  | nil => exact h
  | cons c cs ih =>
    cases c with
    | cls c =>
      simp only [getXmlSub, find_kidsOf] at h ⊢
      cases hk : ks.find? (fun k => decide (k.tag = ns ++ (L.info c).tag)) with
      | none => rw [hk] at h; exact ih h
      | some k =>
        rw [hk] at h
        simp only [Option.map_some] at h ⊢
        split at h
        · cases h
        · rename_i v hv
          rw [hfg k (List.mem_of_find?_eq_some hk) _ _ _ _ hv]; exact h
    | _ => simp [getXmlSub] at h

theorem readAll_mono {c : C} {ns : Str} {nss : NsMap} {r : List (Val C F)}
    (h : readAll c ns nss (kidsOf f ks) = .ok r) : readAll c ns nss (kidsOf g ks) = .ok r := by
  rw [readAll_forall2] at h ⊢
  exact h.imp fun k hk v _ => hfg k hk c ns nss v

theorem getXmlSubList_mono {ns : Str} {nss : NsMap} {cs : List (PyType C)} {r : List (Val C F)}
    (h : getXmlSubList L (kidsOf f ks) ns nss cs = .ok r) :
    getXmlSubList L (kidsOf g ks) ns nss cs = .ok r := by
  induction cs generalizing r with
  | nil => exact h
  | cons c cs ih =>
    cases c with
    | cls c =>
      simp only [getXmlSubList, filter_kidsOf] at h ⊢
      split at h
      · cases h
      · rename_i vs hvs
        split at h
        · cases h
        · rename_i ws hws
          rw [readAll_mono (fun k hk => hfg k (List.mem_filter.mp hk).1) hvs, ih hws]; exact h
    | _ => simp [getXmlSubList] at h

theorem getKwarg_mono {it : Item C} {ns : Str} {nss : NsMap} {e : Xml} {r : Option (Val C F)}
    (h : getKwarg L it true ns nss e (kidsOf f ks) = .ok r) :
    getKwarg L it false ns nss e (kidsOf g ks) = .ok r := by
  unfold getKwarg at h ⊢
  cases hg : it.get <;> rw [hg] at h <;> simp only at h ⊢
  case nodeText => exact h
  case subText => exact h
  case attrText => exact h
  case subBool =>
    split at h
    · rename_i hcls
      try rw [hcls]
      exact wrap_mono (fun a ha => getSub_mono (fun _ _ => boolValue_mono) ha) h
    · cases h
  case subInt => exact wrap_mono (fun a ha => getSub_mono (fun _ _ h => h) ha) h
  case attrInt => exact h
  case subFloat => exact wrap_mono (fun a ha => getSub_mono (fun _ _ h => h) ha) h
  case attrFloat => exact wrap_mono (fun a ha => getAttr_mono (fun _ _ h => h) ha) h
  case subEnum =>
    split at h
    · rename_i hcls
      try rw [hcls]
      exact wrap_mono (fun a ha => getSub_mono (fun _ _ => enumValue_mono) ha) h
    · cases h
  case attrEnum =>
    split at h
    · rename_i hcls
      try rw [hcls]
      exact wrap_mono (fun a ha => getAttr_mono (fun _ _ => enumValue_mono) ha) h
    · cases h
  case subDt => exact wrap_mono (fun a ha => getSub_mono (fun _ _ h => h) ha) h
  case subDtList => exact wrap_mono (fun a ha => nonEmptyList_mono (fun _ => getDts_mono) ha) h
  case coordsList => exact wrap_mono (fun a ha => nonEmptyList_mono (fun _ => getCoordArgs_mono) ha) h
  case coordinates => exact wrap_mono (fun a ha => getCoordinates_mono ha) h
  case xmlSub => exact getXmlSub_mono hfg h
  case xmlSubList =>
    split at h
    · cases h
    · rename_i vs hvs; rw [getXmlSubList_mono hfg hvs]; exact h

theorem tryNs_mono {it : Item C} {nss : NsMap} {e : Xml} {ids : List Str} {r : Option (Val C F)}
    (h : tryNs L it true nss e (kidsOf f ks) ids = .ok r) :
    tryNs L it false nss e (kidsOf g ks) ids = .ok r := by
  induction ids with
  | nil => exact h
  | cons id ids ih =>
    simp only [tryNs] at h ⊢
    split at h
    · cases h
    · rename_i v hv; rw [getKwarg_mono hfg hv]; exact h
    · rename_i hv; rw [getKwarg_mono hfg hv]; exact ih h

theorem getKwargs_mono {nss : NsMap} {e : Xml} {items : List (Item C)}
    {kw r : List (Str × Val C F)}
    (h : getKwargs L true nss e (kidsOf f ks) items kw = .ok r) :
    getKwargs L false nss e (kidsOf g ks) items kw = .ok r := by
  induction items generalizing kw with
  | nil => exact h
  | cons it items ih =>
    simp only [getKwargs] at h ⊢
    split at h
    · cases h
    · rename_i hv; rw [tryNs_mono hfg hv]; exact ih h
    · rename_i v hv; rw [tryNs_mono hfg hv]; exact ih h

end

/-- **C05.** Whenever strict reading succeeds, lenient reading of the same element
(same class, namespace and mapping) succeeds with the same object.  For every
library, every element tree. -/
theorem C05_conservative (L : Lib C) (e : Xml) : ∀ (c : C) (ns : Str) (nss : NsMap) (v : Val C F),
    parse L true e c ns nss = .ok v → parse L false e c ns nss = .ok v := by
  induction e using Xml.ind with
  | h t a x ks ih =>
    intro c ns nss v h
    rw [parse_eq] at h ⊢
    unfold parseStep at h ⊢
    split at h
    · cases h
    · rename_i kw hkw
      have := getKwargs_mono (fun k hk => ih k hk) hkw
      simp only [Xml.kids] at this ⊢
      rw [this]
      exact h

/-- **C05** at the entry point `from_string`. -/
theorem C05_fromElement (c : Cls) (ns : Option Str) (nss : NsMap) (e : Xml) (v : Val Cls F)
    (h : fromElement fastkml true c ns nss e = .ok v) :
    fromElement fastkml false c ns nss e = .ok v :=
  C05_conservative fastkml e _ _ _ v h

/-- Non-vacuity: a placemark with a point and a style is read strictly. -/
def exampleDoc : Xml :=
  .mk (s% "{http://www.opengis.net/kml/2.2}Placemark") [(s% "id", s% "p1")] (some (s% "\n "))
    [.mk (s% "{http://www.opengis.net/kml/2.2}name") [] (some (s% " Paris ")) [],
     .mk (s% "{http://www.opengis.net/kml/2.2}visibility") [] (some (s% "0")) [],
     .mk (s% "{http://www.opengis.net/kml/2.2}Point") [] none
      [.mk (s% "{http://www.opengis.net/kml/2.2}coordinates") [] (some (s% "2.35,48.85,35")) []]]

example : ∃ v, fromElement (F := Fix) fastkml true .Placemark none [] exampleDoc = .ok v := by
  have : (match fromElement (F := Fix) fastkml true .Placemark none [] exampleDoc with
    | .ok _ => true | _ => false) = true := by decide +kernel
  split at this
  · rename_i v hv; exact ⟨v, hv⟩
  · cases this

end Verif
