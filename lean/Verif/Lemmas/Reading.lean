import Verif.Lemmas.ReadTyped
import Verif.Spec.Reading

/-!
# Reading in terms of places and texts
-/

set_option linter.unusedSectionVars false
set_option linter.unusedSimpArgs false

namespace Verif

open Spec

variable {C F : Type} [DecidableEq C] [PyExt F]

theorem cleanString_trimmed (t : Option Str) : cleanString t = trimmed t := by
  cases t with
  | none => rfl
  | some s =>
    simp only [cleanString, trimmed, List.isEmpty_iff]
    by_cases h : s = []
    · subst h; simp [strip, lstrip]
    · simp [h]

/-- The result of reading a scalar item, given its text. -/
def scalarResult (strict : Bool) (it : Item C) : Option Str → Except Err (Option (Val C F))
  | none => .ok none
  | some t => match (denotes strict it t : Option (Val C F)) with
    | some v => .ok (some v)
    | none => if it.get = .attrInt then .error .valueError else handleError strict none

theorem getSub_eq {α : Type} (conv : Str → Option α) (e : Xml) (tag : Str) (strict : Bool) :
    getSub conv e tag strict = match trimmed (childText e tag) with
      | none => .ok none
      | some t => match conv t with
        | some a => .ok (some a)
        | none => handleError strict none := by
  simp only [getSub, childText, Xml.find, strippedText, cleanString_trimmed]
  cases e.kids.find? (fun k => decide (k.tag = tag)) <;> rfl

theorem getAttrText_eq (e : Xml) (key : Str) :
    getAttrText e key = given (dget key e.attrs) := by
  simp only [getAttrText, Xml.get, List.isEmpty_iff]
  cases dget key e.attrs with
  | none => rfl
  | some s => by_cases h : s = [] <;> simp [h, given]

/-- Reading a scalar item in one namespace. -/
theorem getKwarg_scalar {L : Lib C} {it : Item C} (hs : scalar it.get = true) (hc : classesOk it = true)
    (strict : Bool) (ns : Str) (nss : NsMap) (e : Xml) (kids : List (Kid C F)) :
    getKwarg L it strict ns nss e kids = scalarResult strict it (itemText it ns e) := by
  unfold getKwarg
  cases hg : it.get <;> simp only [hg, scalar, place, classesOk] at hs hc <;>
    simp only [itemText, scalarResult, denotes, hg, place]
  case nodeText =>
    simp only [getNodeText, strippedText, cleanString_trimmed]
    cases trimmed e.text <;> rfl
  case subText =>
    have : getSubText e (ns ++ it.node) = trimmed (childText e (ns ++ it.node)) := by
      simp only [getSubText, childText, Xml.find, strippedText, cleanString_trimmed]
      cases e.kids.find? (fun k => decide (k.tag = ns ++ it.node)) <;> rfl
    rw [this]
    cases trimmed (childText e (ns ++ it.node)) <;> rfl
  case attrText =>
    rw [getAttrText_eq]
    cases given (dget (ns ++ it.node) e.attrs) <;> rfl
  case subBool =>
    simp only [decide_eq_true_eq] at hc
    rw [hc, getSub_eq]
    cases trimmed (childText e (ns ++ it.node)) with
    | none => rfl
    | some t =>
      simp only
      cases getBooleanValue F t strict with
      | none => cases strict <;> simp [wrap, handleError]
      | some b => rfl
  case subInt =>
    rw [getSub_eq]
    cases trimmed (childText e (ns ++ it.node)) with
    | none => rfl
    | some t =>
      simp only
      cases intParse t with
      | none => cases strict <;> simp [wrap, handleError]
      | some b => rfl
  case attrInt =>
    simp only [getAttrInt, getAttrText_eq]
    cases given (dget (ns ++ it.node) e.attrs) with
    | none => rfl
    | some s =>
      simp only
      cases intParse s <;> simp [wrap]
  case subFloat =>
    rw [getSub_eq]
    cases trimmed (childText e (ns ++ it.node)) with
    | none => rfl
    | some t =>
      simp only
      cases (PyExt.parse t : Option F) with
      | none => cases strict <;> simp [wrap, handleError]
      | some b => rfl
  case attrFloat =>
    simp only [getAttr, getAttrText_eq]
    cases given (dget (ns ++ it.node) e.attrs) with
    | none => rfl
    | some s =>
      simp only
      cases (PyExt.parse s : Option F) with
      | none => cases strict <;> simp [wrap, handleError]
      | some b => rfl
  case subEnum =>
    split at hc
    · rename_i en hen
      simp only [hen]
      rw [getSub_eq]
      cases trimmed (childText e (ns ++ it.node)) with
      | none => rfl
      | some t =>
        simp only
        cases getEnumValue en t strict with
        | none => cases strict <;> simp [wrap, handleError]
        | some b => rfl
    · cases hc
  case attrEnum =>
    split at hc
    · rename_i en hen
      simp only [hen, getAttr, getAttrText_eq]
      cases given (dget (ns ++ it.node) e.attrs) with
      | none => rfl
      | some s =>
        simp only
        cases getEnumValue en s strict with
        | none => cases strict <;> simp [wrap, handleError]
        | some b => rfl
    · cases hc
  case subDt =>
    rw [getSub_eq]
    cases trimmed (childText e (ns ++ it.node)) with
    | none => rfl
    | some t =>
      simp only
      cases KmlDateTime.parse (PyExt.arrowGet F) t with
      | none => cases strict <;> simp [wrap, handleError]
      | some b => rfl
  all_goals simp at hs

/-- The result of reading the text of `<coordinates>`. -/
def coordsResult (F : Type) [PyExt F] (strict : Bool) : Option Str → Except Err (Option (List (Pt F)))
  | none => .ok none
  | some t => match tuplesOf (latlons t) with
    | some cs => .ok (some cs)
    | none => handleError strict none

theorem getCoordinates_eq (e : Xml) (strict : Bool) :
    getCoordinates (F := F) e strict = coordsResult F strict e.text := by
  unfold getCoordinates coordsResult
  cases e.text <;> rfl

/-- The result of reading depends on the texts only up to `T`. -/
structure TextOk (F : Type) [PyExt F] (T : Item C → Option Str → Option Str → Prop) (strict : Bool) : Prop where
  scalar : ∀ (it : Item C) t t', place it.get = .child ∨ it.get = .nodeText → T it t t' →
    (scalarResult strict it (trimmed t) : Except Err (Option (Val C F))) =
      scalarResult strict it (trimmed t')
  attr : ∀ (it : Item C) t t', place it.get = .attr → T it t t' →
    (scalarResult strict it (given t) : Except Err (Option (Val C F))) =
      scalarResult strict it (given t')
  dts : ∀ (it : Item C) t t', it.get = .subDtList → T it t t' → t = t'
  coords : ∀ (it : Item C) t t', it.get = .coordsList → T it t t' →
    t = t' ∨ ∃ s s', t = some s ∧ t' = some s' ∧ s ≠ [] ∧ s' ≠ [] ∧ splitWs s = splitWs s'
  coordinates : ∀ (it : Item C) t t', it.get = .coordinates → T it t t' →
    coordsResult F strict t = coordsResult F strict t'

theorem getDts_congr {f : Str → Option (Date × Time)} {strict : Bool} {l l' : List Xml}
    (h : All2 (fun k k' => k.text = k'.text) l l') : getDts f strict l = getDts f strict l' := by
  induction h with
  | nil => rfl
  | cons h1 _ ih => simp only [getDts, h1, ih]

theorem getCoordArgs_congr {strict : Bool} {l l' : List Xml}
    (h : All2 (fun k k' => k.text = k'.text ∨
      ∃ s s', k.text = some s ∧ k'.text = some s' ∧ s ≠ [] ∧ s' ≠ [] ∧ splitWs s = splitWs s') l l') :
    getCoordArgs (F := F) strict l = getCoordArgs strict l' := by
  induction h with
  | nil => rfl
  | cons h1 _ ih =>
    simp only [getCoordArgs]
    rcases h1 with h1 | ⟨s, s', h1, h2, h3, h4, h5⟩
    · simp only [h1, ih]
    · simp only [h1, h2, List.isEmpty_iff, h3, h4, if_false, h5, ih]

theorem getXmlSub_congr {L : Lib C} {ns : Str} {N : NsMap} {e e' : Xml}
    {f : Xml → C → Str → NsMap → Except Err (Val C F)} {cs : List (PyType C)}
    (h1 : ∀ d, .cls d ∈ cs → (e.find (ns ++ (L.info d).tag)).isSome = (e'.find (ns ++ (L.info d).tag)).isSome)
    (h2 : ∀ d, .cls d ∈ cs → ∀ k k', e.find (ns ++ (L.info d).tag) = some k →
        e'.find (ns ++ (L.info d).tag) = some k' → f k d ns N = f k' d ns N) :
    getXmlSub L (kidsOf f e.kids) ns N cs = getXmlSub L (kidsOf f e'.kids) ns N cs := by
  induction cs with
  | nil => rfl
  | cons t cs ih =>
    cases t with
    | cls d =>
      have ih' := ih (fun d hd => h1 d (by simp [hd])) (fun d hd => h2 d (by simp [hd]))
      have i1 := h1 d (by simp)
      have i2 := h2 d (by simp)
      simp only [getXmlSub, find_kidsOf, Xml.find] at i1 i2 ⊢
      cases hk : e.kids.find? (fun k => decide (k.tag = ns ++ (L.info d).tag)) with
      | none =>
        rw [hk] at i1
        cases hk' : e'.kids.find? (fun k => decide (k.tag = ns ++ (L.info d).tag)) with
        | none => exact ih'
        | some k' => rw [hk'] at i1; cases i1
      | some k =>
        rw [hk] at i1
        cases hk' : e'.kids.find? (fun k => decide (k.tag = ns ++ (L.info d).tag)) with
        | none => rw [hk'] at i1; cases i1
        | some k' => simp only [Option.map_some, i2 k k' hk hk']
    | _ => rfl

theorem readAll_congr {f : Xml → C → Str → NsMap → Except Err (Val C F)} {d : C} {ns : Str} {N : NsMap}
    {l l' : List Xml} (hl : l.length = l'.length)
    (h : ∀ p ∈ l.zip l', f p.1 d ns N = f p.2 d ns N) :
    readAll d ns N (kidsOf f l) = readAll d ns N (kidsOf f l') := by
  induction l generalizing l' with
  | nil => cases l' <;> simp at hl; rfl
  | cons k l ih =>
    cases l' with
    | nil => simp at hl
    | cons k' l' =>
      have := ih (l' := l') (by simpa using hl) (fun p hp => h p (by simp [hp]))
      simp only [kidsOf, List.map_cons, readAll] at this ⊢
      rw [h (k, k') (by simp), this]

theorem getXmlSubList_congr {L : Lib C} {ns : Str} {N : NsMap} {e e' : Xml}
    {f : Xml → C → Str → NsMap → Except Err (Val C F)} {cs : List (PyType C)}
    (h1 : ∀ d, .cls d ∈ cs → (e.findall (ns ++ (L.info d).tag)).length =
      (e'.findall (ns ++ (L.info d).tag)).length)
    (h2 : ∀ d, .cls d ∈ cs → ∀ p ∈ (e.findall (ns ++ (L.info d).tag)).zip
        (e'.findall (ns ++ (L.info d).tag)), f p.1 d ns N = f p.2 d ns N) :
    getXmlSubList L (kidsOf f e.kids) ns N cs = getXmlSubList L (kidsOf f e'.kids) ns N cs := by
  induction cs with
  | nil => rfl
  | cons t cs ih =>
    cases t with
    | cls d =>
      have ih' := ih (fun d hd => h1 d (by simp [hd])) (fun d hd => h2 d (by simp [hd]))
      have := readAll_congr (h1 d (by simp)) (h2 d (by simp))
      simp only [getXmlSubList, filter_kidsOf, Xml.findall] at this ⊢
      rw [this, ih']
    | _ => rfl

/-- Elements with the same relevant content are read alike. -/
theorem agree_parse {L : Lib C} {T : Item C → Option Str → Option Str → Prop} {strict : Bool}
    (hT : TextOk F T strict) (hc : ∀ c, ∀ it ∈ L.itemsOf c, classesOk it = true) {N : NsMap} {c : C}
    {e e' : Xml} (h : Agree T L N c e e') : ∀ ns nss, mergeNs nss = N →
      parse (F := F) L strict e c ns nss = parse L strict e' c ns nss := by
  -- by induction on the first element
  induction e using Xml.ind generalizing c e' with
  | h t a x ks ih =>
    intro ns nss hN
    have hkid : ∀ k ∈ ks, ∀ d k', Agree T L N d k k' → ∀ ns,
        parse (F := F) L strict k d ns N = parse L strict k' d ns N := by
      intro k hk d k' hA ns
      exact ih k hk hA ns N (by rw [← hN, mergeNs_idem])
    rw [parse_eq, parse_eq]
    simp only [parseStep, hN]
    have : ∀ it ∈ L.itemsOf c,
        tryNs L it strict N (.mk t a x ks) (kidsOf (parse (F := F) L strict) ks) it.nsIds =
        tryNs L it strict N e' (kidsOf (parse L strict) e'.kids) it.nsIds := by
      intro it hit
      apply tryNs_congr
      intro id hid
      -- replace the reader by one that agrees on all related pairs
      cases h with
      | mk htext hattr hchild hchildren hobj hobjA hobjs hobjsA =>
      by_cases hs : scalar it.get = true
      · rw [getKwarg_scalar hs (hc c it hit), getKwarg_scalar hs (hc c it hit)]
        simp only [itemText]
        cases hp : place it.get <;> simp only
        · have hg : it.get = .nodeText := by simpa [scalar, hp] using hs
          exact hT.scalar it _ _ (Or.inr hg) (htext it hit hp)
        · exact hT.scalar it _ _ (Or.inl hp) (hchild it hit hp id hid)
        · exact hT.attr it _ _ hp (hattr it hit hp id hid)
      · cases hg : it.get <;> simp [scalar, place, hg] at hs
        · have := hchildren it hit (by simp [place, hg]) id hid
          simp only [getKwarg, hg]
          rw [getDts_congr (this.imp fun k _ k' _ hk => hT.dts it _ _ hg hk)]
        · have := hchildren it hit (by simp [place, hg]) id hid
          simp only [getKwarg, hg]
          rw [getCoordArgs_congr (this.imp fun k _ k' _ hk => hT.coords it _ _ hg hk)]
        · have hp : place it.get = .object := by simp [place, hg]
          simp only [getKwarg, hg]
          exact getXmlSub_congr (e := .mk t a x ks) (fun d hd => hobj it hit hp id hid d hd)
            (fun d hd k k' hk hk' => hkid k (List.mem_of_find?_eq_some hk) d k'
              (hobjA it hit hp id hid d hd k k' hk hk') _)
        · have hp : place it.get = .objects := by simp [place, hg]
          simp only [getKwarg, hg]
          have := getXmlSubList_congr (f := parse (F := F) L strict) (N := N) (e := .mk t a x ks)
            (fun d hd => hobjs it hit hp id hid d hd)
            (fun d hd p hp' => hkid p.1 (List.mem_filter.mp (List.of_mem_zip hp').1).1 d _
              (hobjsA it hit hp id hid d hd p hp') _)
          simp only [Xml.kids] at this
          rw [this]
          rfl
        · have := hT.coordinates it _ _ hg (htext it hit (by simp [place, hg]))
          simp only [getKwarg, hg, getCoordinates_eq, this]
    simp only [Xml.kids] at this ⊢
    rw [getKwargs_congr this]

theorem textOk_same (strict : Bool) : TextOk F (sameText (C := C)) strict where
  scalar := by rintro it t t' _ rfl; rfl
  attr := by rintro it t t' _ rfl; rfl
  dts := by rintro it t t' _ rfl; rfl
  coords := by rintro it t t' _ rfl; exact Or.inl rfl
  coordinates := by rintro it t t' _ rfl; rfl

theorem splitWs_strip (s : Str) : splitWs (strip s) = splitWs s := by
  obtain ⟨a, b, ha, hb, hs⟩ := strip_decomp s
  have hb' : ∀ u : Str, splitWs (u ++ b) = splitWs u := by
    intro u
    have : ∀ (u cur : Str), splitWsAux cur (u ++ b) = splitWsAux cur u := by
      intro u
      induction u with
      | nil =>
        intro cur
        cases cur with
        | nil =>
          have := splitWsAux_spaces hb []
          simpa using this
        | cons c cur =>
          cases b with
          | nil => rfl
          | cons d b =>
            have hd := hb d (by simp)
            have hb2 := splitWsAux_spaces (a := b) (fun c hc => hb c (by simp [hc])) []
            simp only [List.append_nil] at hb2
            simp [splitWsAux, hd, hb2]
      | cons c u ih =>
        intro cur
        simp only [List.cons_append, splitWsAux, ih]
    exact this u []
  conv => rhs; rw [hs]
  rw [hb', splitWs_spaces ha]

theorem latlons_strip (s : Str) : latlons (strip s) = latlons s := by
  simp only [latlons, strip_idem]

theorem textOk_space (strict : Bool) : TextOk F (sameUpToSpace (C := C)) strict where
  scalar := by
    intro it t t' hp h
    have : trimmed t = trimmed t' := by
      simp only [sameUpToSpace] at h
      cases hg : it.get <;> rw [hg] at h <;> simp [place, hg] at hp <;> exact h
    rw [this]
  attr := by
    intro it t t' hp h
    have : t = t' := by
      simp only [sameUpToSpace] at h
      cases hg : it.get <;> rw [hg] at h <;> simp [place, hg] at hp <;> exact h
    rw [this]
  dts := by intro it t t' hg h; simpa [sameUpToSpace, hg] using h
  coords := by
    intro it t t' hg h
    simp only [sameUpToSpace, hg] at h
    rcases h with h | ⟨h1, h2⟩
    · exact Or.inl h
    · cases t with
      | none => exact absurd rfl h2
      | some s => cases t' with
        | none => cases h1
        | some s' =>
          simp only [Option.map_some, Option.some.injEq] at h1
          have hne : strip s ≠ [] := by
            intro h0; simp [trimmed, h0] at h2
          refine Or.inr ⟨s, s', rfl, rfl, ?_, ?_, ?_⟩
          · rintro rfl; exact hne rfl
          · rintro rfl; rw [h1] at hne; exact hne rfl
          · rw [← splitWs_strip s, h1, splitWs_strip]
  coordinates := by
    intro it t t' hg h
    simp only [sameUpToSpace, hg] at h
    cases t with
    | none => cases t' with
      | none => rfl
      | some s' => cases h
    | some s => cases t' with
      | none => cases h
      | some s' =>
        simp only [Option.map_some, Option.some.injEq] at h
        simp only [coordsResult]
        rw [← latlons_strip s, h, latlons_strip]

theorem textOk_lenient : TextOk F (sameLenient (C := C) F) false where
  scalar := by
    rintro it t t' hp (rfl | ⟨h1, h2⟩)
    · rfl
    · have hr : ∀ t, Worthless F it t →
          (scalarResult false it (trimmed t) : Except Err (Option (Val C F))) = .ok none := by
        intro t h
        have hne : it.get ≠ .attrInt := by intro h'; simp [Worthless, h'] at h
        simp only [Worthless] at h
        cases ht : trimmed t with
        | none => rfl
        | some s =>
          have hd : (denotes false it s : Option (Val C F)) = none := by
            cases hg : it.get <;> rw [hg] at h <;> simp [place, hg] at hp <;> first
              | exact h s ht
              | exact absurd h (by simp)
          simp [scalarResult, hd, hne, handleError]
      rw [hr t h1, hr t' h2]
  attr := by
    rintro it t t' hp (rfl | ⟨h1, h2⟩)
    · rfl
    · have hr : ∀ t, Worthless F it t →
          (scalarResult false it (given t) : Except Err (Option (Val C F))) = .ok none := by
        intro t h
        have hne : it.get ≠ .attrInt := by intro h'; simp [Worthless, h'] at h
        simp only [Worthless] at h
        cases ht : given t with
        | none => rfl
        | some s =>
          have hd : (denotes false it s : Option (Val C F)) = none := by
            cases hg : it.get <;> rw [hg] at h <;> simp [place, hg] at hp <;> first
              | exact h s ht
              | exact absurd h (by simp)
          simp [scalarResult, hd, hne, handleError]
      rw [hr t h1, hr t' h2]
  dts := by
    rintro it t t' hg (h | ⟨hc, _⟩)
    · exact h
    · simp [Worthless, hg] at hc
  coords := by
    rintro it t t' hg (h | ⟨hc, _⟩)
    · exact Or.inl h
    · simp [Worthless, hg] at hc
  coordinates := by
    rintro it t t' hg (h | ⟨h1, h2⟩)
    · rw [h]
    · have hr : ∀ t, Worthless F it t → coordsResult F false t = .ok none := by
        intro t h
        simp only [Worthless, hg] at h
        cases t with
        | none => rfl
        | some s => simp [coordsResult, h s rfl, handleError]
      rw [hr t h1, hr t' h2]

end Verif

namespace Verif

open Spec

variable {C F : Type} [DecidableEq C] [PyExt F]

/-! ## Sameness of content -/

omit [PyExt F] in
theorem agree_refl {T : Item C → Option Str → Option Str → Prop} (hT : ∀ it t, T it t t) (L : Lib C)
    (N : NsMap) (e : Xml) : ∀ c, Agree T L N c e e := by
  induction e using Xml.ind with
  | h t a x ks ih =>
    intro c
    refine .mk (fun it _ _ => hT _ _) (fun it _ _ id _ => hT _ _) (fun it _ _ id _ => hT _ _)
      (fun it _ _ id _ => All2.refl fun k _ => hT _ _) (fun _ _ _ _ _ _ _ => rfl) ?_
      (fun _ _ _ _ _ _ _ => rfl) ?_
    · intro it _ _ id _ d _ k k' hk hk'
      rw [hk] at hk'
      cases hk'
      exact ih k (List.mem_of_find?_eq_some hk) d
    · intro it _ _ id _ d _ p hp
      have : p.1 = p.2 ∧ p.1 ∈ (Xml.mk t a x ks).findall (nsGet N id ++ (L.info d).tag) := by
        generalize (Xml.mk t a x ks).findall (nsGet N id ++ (L.info d).tag) = l at hp
        induction l with
        | nil => simp at hp
        | cons k l ihl =>
          simp only [List.zip_cons_cons, List.mem_cons] at hp
          rcases hp with rfl | hp
          · exact ⟨rfl, by simp⟩
          · obtain ⟨h1, h2⟩ := ihl hp; exact ⟨h1, by simp [h2]⟩
      rw [← this.1]
      exact ih p.1 (List.mem_filter.mp this.2).1 d

theorem childText_find (e : Xml) (tag : Str) : childText e tag = (e.find tag).bind Xml.text := by
  simp only [childText, Xml.find]
  cases e.kids.find? (fun k => decide (k.tag = tag)) <;> rfl

/-- Elements with the same text, registered attributes, first children and lists
of children. -/
theorem agree_of_lookup {T : Item C → Option Str → Option Str → Prop} (hT : ∀ it t, T it t t) {L : Lib C}
    {N : NsMap} {c : C} {e e' : Xml} (htext : e.text = e'.text)
    (hattr : ∀ key, AttrKey L N c key → e.get key = e'.get key)
    (hfind : ∀ tag, SingleTag L N c tag → e.find tag = e'.find tag)
    (hall : ∀ tag, ListTag L N c tag → e.findall tag = e'.findall tag) : Agree T L N c e e' := by
  have zip_self : ∀ (l : List Xml) p, p ∈ l.zip l → p.1 = p.2 := by
    intro l
    induction l with
    | nil => simp
    | cons k l ih =>
      intro p hp
      simp only [List.zip_cons_cons, List.mem_cons] at hp
      rcases hp with rfl | hp
      · rfl
      · exact ih p hp
  refine .mk ?_ ?_ ?_ ?_ ?_ ?_ ?_ ?_
  · intro it _ _; rw [htext]; exact hT _ _
  · intro it hit hp id hid; rw [hattr _ ⟨it, hit, id, hid, hp, rfl⟩]; exact hT _ _
  · intro it hit hp id hid
    rw [childText_find, childText_find, hfind _ ⟨it, hit, id, hid, Or.inl ⟨hp, rfl⟩⟩]
    exact hT _ _
  · intro it hit hp id hid
    rw [hall _ ⟨it, hit, id, hid, Or.inl ⟨hp, rfl⟩⟩]
    exact All2.refl fun k _ => hT _ _
  · intro it hit hp id hid d hd
    rw [hfind _ ⟨it, hit, id, hid, Or.inr ⟨hp, d, hd, rfl⟩⟩]
  · intro it hit hp id hid d hd k k' hk hk'
    rw [hfind _ ⟨it, hit, id, hid, Or.inr ⟨hp, d, hd, rfl⟩⟩, hk'] at hk
    cases hk
    exact agree_refl hT L N _ d
  · intro it hit hp id hid d hd
    rw [hall _ ⟨it, hit, id, hid, Or.inr ⟨hp, d, hd, rfl⟩⟩]
  · intro it hit hp id hid d hd p hp'
    rw [hall _ ⟨it, hit, id, hid, Or.inr ⟨hp, d, hd, rfl⟩⟩] at hp'
    rw [zip_self _ p hp']
    exact agree_refl hT L N _ d

/-! ## The attributes of the result -/

/-- What a successful reading returns: the readers' results, and the constructor. -/
theorem parse_ok {L : Lib C} {c : C} (hR : ReadOk L c) {strict : Bool} {e : Xml} {ns : Str} {nss : NsMap}
    {v : Val C F} (h : parse L strict e c ns nss = .ok v) :
    ∃ r : Item C → Option (Val C F), (∀ it ∈ L.itemsOf c,
      tryNs L it strict (mergeNs nss) e (kidsOf (parse L strict) e.kids) it.nsIds = .ok (r it)) ∧
      construct L c ns (mergeNs nss) (kwOf r (L.itemsOf c)) = .ok v := by
  rw [parse_eq] at h
  simp only [parseStep] at h
  split at h
  · cases h
  · rename_i kw hkw
    obtain ⟨r, hr, rfl⟩ := (getKwargs_ok hR.attrs).mp hkw
    exact ⟨r, hr, h⟩

/-- An attribute of the object is the normalised result of its reader. -/
theorem parse_attr {L : Lib C} {c : C} (hR : ReadOk L c) {strict : Bool} {e : Xml} {ns : Str} {nss : NsMap}
    {c' : C} {ns' : Str} {nss' : NsMap} {attrs : List (Str × Val C F)}
    (h : parse L strict e c ns nss = .ok (.obj c' ns' nss' attrs)) {it : Item C} (hit : it ∈ L.itemsOf c)
    {n : Norm} (hn : (it.attr, n) ∈ (L.info c).slots) :
    ∃ o, tryNs L it strict (mergeNs nss) e (kidsOf (parse L strict) e.kids) it.nsIds = .ok o ∧
      normalise L n (o.getD .none) = .ok (attrOf it.attr attrs) := by
  obtain ⟨r, hr, hc⟩ := parse_ok hR h
  refine ⟨r it, hr it hit, ?_⟩
  obtain ⟨attrs', w, he, hw, hd⟩ := construct_slot hc hR.known hn
  cases he
  unfold attrOf
  rw [hd]
  rw [kwGet, dget_kwOf hR.attrs hit] at hw
  exact hw

/-- The first value of a scalar item, when reading succeeds. -/
theorem tryNs_scalar {L : Lib C} {it : Item C} (hs : scalar it.get = true) (hc : classesOk it = true)
    {strict : Bool} {N : NsMap} {e : Xml} {kids : List (Kid C F)} {ids : List Str} {o : Option (Val C F)}
    (h : tryNs L it strict N e kids ids = .ok o) : o = firstValue strict it N e ids := by
  induction ids with
  | nil => simp [tryNs] at h; rw [← h]; rfl
  | cons id ids ih =>
    simp only [tryNs, getKwarg_scalar hs hc] at h
    simp only [firstValue]
    cases ht : itemText it (nsGet N id) e with
    | none => rw [ht] at h; exact ih h
    | some t =>
      rw [ht] at h
      simp only [scalarResult] at h
      cases hd : (denotes strict it t : Option (Val C F)) with
      | none =>
        rw [hd] at h
        simp only at h
        split at h
        · cases h
        · rename_i v hv
          split at hv
          · cases hv
          · cases strict <;> simp [handleError] at hv
        · simp only [hd]; exact ih h
      | some v => rw [hd] at h; simp at h; simp only [hd]; exact h.symm

/-- In strict mode no text is skipped. -/
theorem tryNs_scalar_strict {L : Lib C} {it : Item C} (hs : scalar it.get = true) (hc : classesOk it = true)
    {N : NsMap} {e : Xml} {kids : List (Kid C F)} {ids : List Str} {o : Option (Val C F)}
    (h : tryNs L it true N e kids ids = .ok o) {pre post : List Str} {id : Str} (hids : ids = pre ++ id :: post)
    (hpre : ∀ i ∈ pre, itemText it (nsGet N i) e = none) {t : Str} (ht : itemText it (nsGet N id) e = some t) :
    ∃ v, denotes true it t = some v ∧ o = some v := by
  subst hids
  induction pre with
  | nil =>
    simp only [List.nil_append, tryNs, getKwarg_scalar hs hc, ht, scalarResult] at h
    cases hd : (denotes true it t : Option (Val C F)) with
    | none =>
      rw [hd] at h
      by_cases hg : it.get = .attrInt <;> simp [hg, handleError] at h
    | some v => rw [hd] at h; simp at h; exact ⟨v, rfl, h.symm⟩
  | cons i pre ih =>
    simp only [List.cons_append, tryNs, getKwarg_scalar hs hc, hpre i (by simp), scalarResult] at h
    exact ih (fun j hj => hpre j (by simp [hj])) h

theorem getXmlSub_iff {L : Lib C} {f : Xml → C → Str → NsMap → Except Err (Val C F)} {e : Xml} {ns : Str}
    {N : NsMap} {cs : List (PyType C)} {o : Option (Val C F)}
    (h : getXmlSub L (kidsOf f e.kids) ns N cs = .ok o) :
    (o = none ∧ ∀ d, .cls d ∈ cs → e.find (ns ++ (L.info d).tag) = none) ∨
    ∃ pre d post k v, cs = pre ++ .cls d :: post ∧
      (∀ d', .cls d' ∈ pre → e.find (ns ++ (L.info d').tag) = none) ∧
      e.find (ns ++ (L.info d).tag) = some k ∧ f k d ns N = .ok v ∧ o = some v := by
  induction cs with
  | nil => simp [getXmlSub] at h; exact Or.inl ⟨h.symm, by simp⟩
  | cons t cs ih =>
    cases t with
    | cls d =>
      simp only [getXmlSub, find_kidsOf] at h
      cases hk : e.kids.find? (fun k => decide (k.tag = ns ++ (L.info d).tag)) with
      | none =>
        rw [hk] at h
        rcases ih h with ⟨h1, h2⟩ | ⟨pre, d', post, k, v, h1, h2, h3⟩
        · left
          refine ⟨h1, ?_⟩
          intro d' hd'
          rcases List.mem_cons.mp hd' with hd' | hd'
          · cases hd'; exact hk
          · exact h2 d' hd'
        · right
          refine ⟨.cls d :: pre, d', post, k, v, by rw [h1]; rfl, ?_, h3⟩
          intro d'' hd''
          rcases List.mem_cons.mp hd'' with hd'' | hd''
          · cases hd''; exact hk
          · exact h2 d'' hd''
      | some k =>
        rw [hk] at h
        simp only [Option.map_some] at h
        cases hv : f k d ns N with
        | error e => rw [hv] at h; cases h
        | ok v =>
          rw [hv] at h
          simp at h
          exact Or.inr ⟨[], d, cs, k, v, rfl, by simp, hk, hv, h.symm⟩
    | _ => cases h

theorem getXmlSubList_iff {L : Lib C} {f : Xml → C → Str → NsMap → Except Err (Val C F)} {e : Xml} {ns : Str}
    {N : NsMap} {cs : List (PyType C)} {vs : List (Val C F)}
    (h : getXmlSubList L (kidsOf f e.kids) ns N cs = .ok vs) :
    ∃ vss, All2 (fun t vs => ∃ d, t = .cls d ∧
      All2 (fun k v => f k d ns N = .ok v) (e.findall (ns ++ (L.info d).tag)) vs) cs vss ∧ vs = vss.flatten := by
  induction cs generalizing vs with
  | nil => simp [getXmlSubList] at h; exact ⟨[], .nil, by simp [h]⟩
  | cons t cs ih =>
    cases t with
    | cls d =>
      simp only [getXmlSubList, filter_kidsOf] at h
      split at h
      · cases h
      · rename_i us hus
        split at h
        · cases h
        · rename_i ws hws
          simp at h; subst h
          obtain ⟨vss, h1, rfl⟩ := ih hws
          exact ⟨us :: vss, .cons ⟨d, rfl, readAll_forall2.mp hus⟩ h1, by simp⟩
    | _ => cases h

theorem keepTruthy_filter {L : Lib C} {l r : List (Val C F)} (h : keepTruthy L l = .ok r) :
    r = l.filter (nonEmpty L) := by
  induction l generalizing r with
  | nil => simp [keepTruthy] at h; rw [h]; rfl
  | cons v l ih =>
    simp only [keepTruthy] at h
    split at h
    · cases h
    · rename_i b hb
      split at h
      · cases h
      · rename_i r' hr'
        simp at h; subst h
        have hne : nonEmpty L v = b := by simp [nonEmpty, hb]
        rw [List.filter_cons, hne, ← ih hr']

end Verif
