import Verif.Spec.Rename
import Verif.Spec.Cycle
import Verif.Lemmas.Alike
import Verif.Lemmas.Names
import Verif.Lemmas.Ns
import Verif.Lemmas.Read
import Verif.Lemmas.Write

/-!
# Other namespaces
-/

set_option linter.unusedSectionVars false
set_option linter.unusedSimpArgs false

namespace Verif
open Spec

/-! ## Tags -/

theorem localName_suffix (t : Str) : localName t <:+ t := by
  unfold localName
  have := List.takeWhile_prefix (fun c : Char => c != '}') (l := t.reverse)
  have := List.reverse_suffix.mpr this
  rwa [List.reverse_reverse] at this

theorem nsPart_append (t : Str) : nsPart t ++ localName t = t := by
  obtain ⟨u, hu⟩ := localName_suffix t
  have : nsPart t = u := by
    unfold nsPart
    have hl : t.length - (localName t).length = u.length := by
      have := congrArg List.length hu
      simp only [List.length_append] at this
      omega
    rw [hl]
    conv => lhs; rw [← hu]
    simp
  rw [this, hu]

theorem not_brace_localName (t : Str) : '}' ∉ localName t := by
  unfold localName
  intro h
  rw [List.mem_reverse] at h
  have ha := List.all_takeWhile (p := fun c : Char => c != '}') (l := t.reverse)
  rw [List.all_eq_true] at ha
  have := ha _ h
  simp at this

theorem nsPart_form (t : Str) : NsForm (nsPart t) := by
  have hap := nsPart_append t
  have hsplit : t.reverse = t.reverse.takeWhile (fun c => c != '}') ++ t.reverse.dropWhile (fun c => c != '}') :=
    (List.takeWhile_append_dropWhile).symm
  have hns : nsPart t = (t.reverse.dropWhile (fun c => c != '}')).reverse := by
    have : t = (t.reverse.dropWhile (fun c => c != '}')).reverse ++ localName t := by
      have := congrArg List.reverse hsplit
      rw [List.reverse_reverse, List.reverse_append] at this
      exact this
    exact List.append_cancel_right (hap.trans this)
  rw [hns]
  cases hd : t.reverse.dropWhile (fun c => c != '}') with
  | nil => exact Or.inl rfl
  | cons x l =>
    refine Or.inr ⟨l.reverse, ?_⟩
    have : (x != '}') = false := by
      have h := List.head?_dropWhile_not (fun c : Char => c != '}') t.reverse
      rw [hd] at h
      simpa using h
    have : x = '}' := by simpa using this
    subst this
    rw [List.reverse_cons]

theorem nsPart_tag {ns l : Str} (hns : NsForm ns) (hl : '}' ∉ l) : nsPart (ns ++ l) = ns ∧ localName (ns ++ l) = l := by
  have h2 := localOf_append hns hl
  have := nsPart_append (ns ++ l)
  rw [h2] at this
  exact ⟨List.append_cancel_right this, h2⟩

theorem renTag_tag {f : Str → Str} {ns l : Str} (hns : NsForm ns) (hl : '}' ∉ l) : renTag f (ns ++ l) = f ns ++ l := by
  obtain ⟨h1, h2⟩ := nsPart_tag hns hl
  rw [renTag, h1, h2]

theorem renTag_iff {f : Str → Str} (hf : Renaming f) {t ns l : Str} (hns : NsForm ns) (hl : '}' ∉ l) :
    renTag f t = f ns ++ l ↔ t = ns ++ l := by
  constructor
  · intro h
    obtain ⟨h1, h2⟩ := tag_inj (hf.form _ (nsPart_form t)) (hf.form _ hns) (not_brace_localName t) hl h
    have h1 := hf.inj _ _ (nsPart_form t) hns h1
    rw [← nsPart_append t, h1, h2]
  · rintro rfl
    exact renTag_tag hns hl

theorem renKey_eq {f : Str → Str} (hf : Renaming f) (k : Str) : renKey f k = renTag f k := by
  unfold renKey
  split
  · rename_i h
    conv => lhs; rw [← nsPart_append k, h]
    rw [renTag, h, hf.none]
  · rfl

/-! ## Documents -/

theorem renKids_eq (f : Str → Str) (ks : List Xml) : renKids f ks = ks.map (renXml f) := by
  induction ks with
  | nil => simp only [renKids, List.map_nil]
  | cons k ks ih => simp only [renKids, List.map_cons, ih]

theorem renXml_mk (f : Str → Str) (t : Str) (as : List (Str × Str)) (x : Option Str) (ks : List Xml) :
    renXml f (.mk t as x ks) = .mk (renTag f t) (as.map fun p => (renKey f p.1, p.2)) x (ks.map (renXml f)) := by
  simp only [renXml, renKids_eq]

theorem renXml_tag (f : Str → Str) (e : Xml) : (renXml f e).tag = renTag f e.tag := by
  cases e; rw [renXml_mk]; rfl

theorem renXml_text (f : Str → Str) (e : Xml) : (renXml f e).text = e.text := by
  cases e; rw [renXml_mk]; rfl

theorem renXml_kids (f : Str → Str) (e : Xml) : (renXml f e).kids = e.kids.map (renXml f) := by
  cases e; rw [renXml_mk]; rfl

theorem decide_renTag {f : Str → Str} (hf : Renaming f) {ns l : Str} (hns : NsForm ns) (hl : '}' ∉ l) :
    ((fun k : Xml => decide (k.tag = f ns ++ l)) ∘ renXml f) = fun k => decide (k.tag = ns ++ l) := by
  funext k
  simp only [Function.comp_apply, renXml_tag]
  exact decide_eq_decide.mpr (renTag_iff hf hns hl)

theorem find_ren {f : Str → Str} (hf : Renaming f) {ns l : Str} (hns : NsForm ns) (hl : '}' ∉ l) (e : Xml) :
    (renXml f e).find (f ns ++ l) = (e.find (ns ++ l)).map (renXml f) := by
  simp only [Xml.find, renXml_kids, List.find?_map, decide_renTag hf hns hl]

theorem findall_ren {f : Str → Str} (hf : Renaming f) {ns l : Str} (hns : NsForm ns) (hl : '}' ∉ l) (e : Xml) :
    (renXml f e).findall (f ns ++ l) = (e.findall (ns ++ l)).map (renXml f) := by
  simp only [Xml.findall, renXml_kids, List.filter_map, decide_renTag hf hns hl]

theorem get_ren {f : Str → Str} (hf : Renaming f) {ns l : Str} (hns : NsForm ns) (hl : '}' ∉ l) (e : Xml) :
    (renXml f e).get (f ns ++ l) = e.get (ns ++ l) := by
  obtain ⟨t, as, x, ks⟩ := e
  rw [renXml_mk]
  simp only [Xml.get, Xml.attrs]
  induction as with
  | nil => rfl
  | cons p as ih =>
    obtain ⟨k, v⟩ := p
    have : (renKey f k = f ns ++ l) ↔ (k = ns ++ l) := by rw [renKey_eq hf]; exact renTag_iff hf hns hl
    simp only [List.map_cons, dget, ih]
    by_cases hk : k = ns ++ l
    · rw [if_pos hk, if_pos (this.mpr hk)]
    · rw [if_neg hk, if_neg (fun h => hk (this.mp h))]

/-! ## Values -/

variable {F : Type} [PyExt F]

theorem renAttrs_eq (f : Str → Str) (attrs : List (Str × Val Cls F)) :
    renAttrs f attrs = attrs.map fun p => (p.1, renVal f p.2) := by
  induction attrs with
  | nil => simp only [renAttrs, List.map_nil]
  | cons p r ih => obtain ⟨a, v⟩ := p; simp only [renAttrs, List.map_cons, ih]

theorem renList_eq (f : Str → Str) (l : List (Val Cls F)) : renList f l = l.map (renVal f) := by
  induction l with
  | nil => simp only [renList, List.map_nil]
  | cons v r ih => simp only [renList, List.map_cons, ih]

theorem renVal_obj (f : Str → Str) (c : Cls) (ns : Str) (nss : NsMap) (attrs : List (Str × Val Cls F)) :
    renVal f (.obj c ns nss attrs) = .obj c (f ns) (renMap f nss) (attrs.map fun p => (p.1, renVal f p.2)) := by
  simp only [renVal, renAttrs_eq]

theorem renVal_list (f : Str → Str) (l : List (Val Cls F)) : renVal f (.list l) = .list (l.map (renVal f)) := by
  simp only [renVal, renList_eq]

/-- A value that contains no objects. -/
theorem renVal_plain (f : Str → Str) {v : Val Cls F} (hv : ∀ c ns nss as, v ≠ .obj c ns nss as)
    (hl : ∀ l, v ≠ .list l) : renVal f v = v := by
  cases v <;> first | exact absurd rfl (hv _ _ _ _) | exact absurd rfl (hl _) | simp only [renVal]

theorem attrOf_ren (f : Str → Str) (a : Str) (attrs : List (Str × Val Cls F)) :
    attrOf a (attrs.map fun p => (p.1, renVal f p.2)) = renVal f (attrOf a attrs) := by
  unfold attrOf
  rw [dget_map_kv (renVal f)]
  cases dget a attrs with
  | none => simp only [Option.map_none, Option.getD_none, renVal]
  | some v => rfl

theorem notNone_ren (f : Str → Str) (v : Val Cls F) : (renVal f v).notNone = v.notNone := by
  cases v <;> simp only [renVal, Val.notNone]

theorem coordsOf_ren (f : Str → Str) (v : Val Cls F) : coordsOf (renVal f v) = coordsOf v := by
  cases v <;> simp only [renVal, coordsOf]
  rename_i c ns nss attrs
  rw [renAttrs_eq, dget_map_kv (renVal f)]
  cases dget (s% "coords") attrs with
  | none => rfl
  | some w => cases w <;> simp only [Option.map_some, renVal]

theorem numOf_ren (f : Str → Str) (v : Val Cls F) : numOf (renVal f v) = numOf v := by
  cases v <;> simp only [renVal, numOf]

/-- Truth value and geometry do not depend on namespaces. -/
theorem info_ren (f : Str → Str) (v : Val Cls F) : info fastkml (renVal f v) = info fastkml v := by
  induction v using Val.objInd with
  | hother v hv =>
    cases v <;> first | exact absurd rfl (hv _ _ _ _) | simp only [renVal, info, renList_eq, List.isEmpty_map]
  | hobj c ns nss attrs ih1 ih2 =>
    rw [renVal_obj]
    have hsame : ∀ a, AlikeView (viewOf a (infoAttrs fastkml (attrs.map fun p => (p.1, renVal f p.2))))
        (viewOf a (infoAttrs fastkml attrs)) := by
      intro a
      rw [viewOf_infoAttrs, viewOf_infoAttrs, attrOf_ren]
      by_cases hnone : attrOf a attrs = .none
      · rw [hnone]
        simp only [renVal]
        exact ⟨rfl, rfl, rfl, rfl, rfl, fun l => Iff.rfl⟩
      · have hm := attrOf_mem (rfl : attrOf a attrs = attrOf a attrs) hnone
        refine ⟨ih1 a _ hm, ?_, notNone_ren f _, coordsOf_ren f _, numOf_ren f _, ?_⟩
        · cases hv : attrOf a attrs <;> simp only [renVal, infoElems]
          rename_i l
          rw [hv] at hm
          rw [renList_eq, infoList_eq, infoList_eq, List.map_map]
          apply List.map_congr_left
          intro w hw
          exact ih2 a l hm w hw
        · intro l
          cases hv : attrOf a attrs <;> simp only [renVal, reduceCtorEq]
    simp only [info, infoStep]
    rw [geomStep_alike hsame, boolStep_alike hsame]

theorem truthy_ren (f : Str → Str) (v : Val Cls F) : truthy fastkml (renVal f v) = truthy fastkml v := by
  rw [truthy, info_ren, truthy]

/-! ## Namespace mappings -/

theorem dget_renMap (f : Str → Str) (N : NsMap) (i : Str) : dget i (renMap f N) = (dget i N).map f := by
  induction N with
  | nil => rfl
  | cons p N ih =>
    obtain ⟨k, v⟩ := p
    simp only [renMap, List.map_cons, dget]
    split
    · rfl
    · exact ih

theorem nsGet_ren {f : Str → Str} (h0 : f [] = []) (N : NsMap) (i : Str) : nsGet (renMap f N) i = f (nsGet N i) := by
  unfold nsGet
  rw [dget_renMap]
  cases dget i N with
  | none => exact h0.symm
  | some v => rfl

theorem keys_renMap (f : Str → Str) (N : NsMap) : (renMap f N).map Prod.fst = N.map Prod.fst := by
  simp only [renMap, List.map_map]; rfl

/-! ## Constructors -/

/-- The same keyword arguments with other namespaces. -/
def renKw (f : Str → Str) (kw : List (Str × Val Cls F)) : List (Str × Val Cls F) :=
  kw.map fun p => (p.1, renVal f p.2)

theorem kwGet_ren (f : Str → Str) (a : Str) (kw : List (Str × Val Cls F)) :
    kwGet a (renKw f kw) = renVal f (kwGet a kw) := attrOf_ren f a kw

theorem keepTruthy_ren (f : Str → Str) (l : List (Val Cls F)) :
    keepTruthy fastkml (l.map (renVal f)) = (keepTruthy fastkml l).map (fun l => l.map (renVal f)) := by
  induction l with
  | nil => rfl
  | cons v l ih =>
    simp only [List.map_cons, keepTruthy, truthy_ren, ih]
    cases truthy fastkml v with
    | error e => rfl
    | ok b =>
      cases keepTruthy fastkml l with
      | error e => rfl
      | ok r => cases b <;> rfl

theorem normalise_ren (f : Str → Str) (n : Norm) (v : Val Cls F) :
    normalise fastkml n (renVal f v) = (normalise fastkml n v).map (renVal f) := by
  cases n
  case orNone =>
    simp only [normalise, truthy_ren]
    cases truthy fastkml v with
    | error e => rfl
    | ok b => cases b <;> simp only [Except.map, Bool.false_eq_true, if_false, if_true, renVal]
  case listTruthy =>
    cases v <;> simp only [normalise, renVal, renList_eq, Except.map, List.map_nil]
    rename_i l
    rw [keepTruthy_ren]
    cases keepTruthy fastkml l with
    | error e => rfl
    | ok r => simp only [Except.map, renVal, renList_eq]
  case clean =>
    cases v <;> simp only [normalise, renVal, Except.map]
    rename_i s
    cases cleanString (some s) <;> simp only [renVal]
  all_goals cases v <;> simp only [normalise, renVal, renList_eq, Except.map, List.map_nil]

theorem fillSlots_ren (f : Str → Str) (kw : List (Str × Val Cls F)) (l : List (Str × Norm)) :
    fillSlots fastkml (renKw f kw) l = (fillSlots fastkml kw l).map (renKw f) := by
  induction l with
  | nil => rfl
  | cons p l ih =>
    obtain ⟨a, n⟩ := p
    simp only [fillSlots, kwGet_ren, normalise_ren, ih]
    cases normalise fastkml n (kwGet a kw) with
    | error e => rfl
    | ok w =>
      cases fillSlots fastkml kw l with
      | error e => rfl
      | ok r => rfl

theorem trackItems_ren (f : Str → Str) (kw : List (Str × Val Cls F)) : trackItems (renKw f kw) = trackItems kw := by
  simp only [trackItems, kwGet_ren]
  generalize kwGet (s% "track_items") kw = a
  generalize kwGet (s% "whens") kw = b
  generalize kwGet (s% "coords") kw = c
  generalize kwGet (s% "angles") kw = d
  cases a <;> simp only [renVal] <;> cases b <;> simp only [renVal] <;> cases c <;> simp only [renVal] <;>
    cases d <;> simp only [renVal]

theorem specialInit_ren (f : Str → Str) (s : Special) (kw : List (Str × Val Cls F)) :
    specialInit fastkml s (renKw f kw) = (specialInit fastkml s kw).map (renKw f) := by
  cases s
  case schema =>
    simp only [specialInit, kwGet_ren]
    cases kwGet (s% "id") kw <;> simp only [renVal, Except.map]
    rename_i t
    cases t.isEmpty <;> rfl
  case track =>
    simp only [specialInit, trackItems_ren]
    cases trackItems kw with
    | error e => rfl
    | ok l => simp only [Except.map, renKw, List.map_cons, List.map_nil, renVal]
  case placemark =>
    simp only [specialInit, kwGet_ren, truthy_ren]
    cases truthy fastkml (kwGet (s% "kml_geometry") kw) <;> rfl
  all_goals rfl

/-- Merging changes nothing any more. -/
def Merged (N : NsMap) : Prop := mergeNs N = N

theorem merged_merge (N : NsMap) : Merged (mergeNs N) := mergeNs_idem N

theorem merged_ren (f : Str → Str) {N : NsMap} (h : Merged N) : Merged (renMap f N) := by
  have hnd : (N.map Prod.fst).Nodup := by have := mergeNs_nodup N; rwa [h] at this
  have hp : defaultNameSpaces.map Prod.fst <+: N.map Prod.fst := by
    have := keys_dupdate_prefix defaultNameSpaces N
    have hm : dupdate defaultNameSpaces N = N := h
    rwa [hm] at this
  have := dupdate_prefix (p := []) (d := defaultNameSpaces) (e := renMap f N)
    (by simpa [keys_renMap] using hnd) (by rw [keys_renMap]; exact hp)
  exact this

theorem construct_ren (f : Str → Str) (c : Cls) (ns : Str) {nss : NsMap} (hm : Merged nss)
    (kw : List (Str × Val Cls F)) :
    construct fastkml c (f ns) (renMap f nss) (renKw f kw) = renResult f (construct fastkml c ns nss kw) := by
  simp only [construct]
  have hx : ∀ known : List Str, (renKw f kw).filter (fun p => decide (p.1 ∉ known)) =
      renKw f (kw.filter fun p => decide (p.1 ∉ known)) := by
    intro known
    simp only [renKw, List.filter_map]; rfl
  have hn : ∀ k : List (Str × Val Cls F), renKw f k ≠ [] ↔ k ≠ [] := by
    intro k; simp only [renKw, ne_eq, List.map_eq_nil_iff]
  rw [hx]
  simp only [hn, specialInit_ren, fillSlots_ren, merged_ren f hm, show mergeNs nss = nss from hm,
    show mergeNs (renMap f nss) = renMap f nss from merged_ren f hm]
  split
  · rfl
  · cases specialInit fastkml (fastkml.info c).special kw with
    | error e => rfl
    | ok sp =>
      cases fillSlots fastkml kw (fastkml.info c).slots with
      | error e => rfl
      | ok sl =>
        simp only [Except.map, renResult, renVal_obj, renKw, List.map_append]

/-! ## Reading -/

/-- The same optional value with other namespaces. -/
def renOpt (f : Str → Str) : Except Err (Option (Val Cls F)) → Except Err (Option (Val Cls F))
  | .ok (some v) => .ok (some (renVal f v))
  | .ok none => .ok none
  | .error e => .error e

theorem getSub_ren {α : Type} {f : Str → Str} (hf : Renaming f) {ns l : Str} (hns : NsForm ns) (hl : '}' ∉ l)
    (conv : Str → Option α) (e : Xml) (strict : Bool) :
    getSub conv (renXml f e) (f ns ++ l) strict = getSub conv e (ns ++ l) strict := by
  simp only [getSub, find_ren hf hns hl]
  cases e.find (ns ++ l) with
  | none => rfl
  | some n => simp only [Option.map_some, renXml_text]

theorem getSubText_ren {f : Str → Str} (hf : Renaming f) {ns l : Str} (hns : NsForm ns) (hl : '}' ∉ l)
    (e : Xml) : getSubText (renXml f e) (f ns ++ l) = getSubText e (ns ++ l) := by
  simp only [getSubText, find_ren hf hns hl]
  cases e.find (ns ++ l) with
  | none => rfl
  | some n => simp only [Option.map_some, renXml_text]

theorem getAttrText_ren {f : Str → Str} (hf : Renaming f) {ns l : Str} (hns : NsForm ns) (hl : '}' ∉ l)
    (e : Xml) : getAttrText (renXml f e) (f ns ++ l) = getAttrText e (ns ++ l) := by
  simp only [getAttrText, get_ren hf hns hl]

theorem getDts_ren (f : Str → Str) (g : Str → Option (Date × Time)) (strict : Bool) (l : List Xml) :
    getDts g strict (l.map (renXml f)) = getDts g strict l := by
  induction l with
  | nil => rfl
  | cons n l ih => simp only [List.map_cons, getDts, renXml_text, ih]

theorem getCoordArgs_ren (f : Str → Str) (strict : Bool) (l : List Xml) :
    getCoordArgs (F := F) strict (l.map (renXml f)) = getCoordArgs strict l := by
  induction l with
  | nil => rfl
  | cons n l ih => simp only [List.map_cons, getCoordArgs, renXml_text, ih]

theorem wrap_ren (f : Str → Str) {α : Type} (g : α → Val Cls F) (hg : ∀ a, renVal f (g a) = g a)
    (r : Except Err (Option α)) : wrap g r = renOpt f (wrap g r) := by
  cases r with
  | error e => rfl
  | ok o => cases o with
    | none => rfl
    | some a => simp only [wrap, renOpt, hg]

/-- Readers of children that agree after renaming. -/
def KidsRen (f : Str → Str) (nss : NsMap) (ks : List Xml) : Prop :=
  ∀ strict, ∀ k ∈ ks, ∀ (c : Cls) ns, NsForm ns →
    parse (F := F) fastkml strict (renXml f k) c (f ns) (renMap f nss) = renResult f (parse fastkml strict k c ns nss)

theorem getXmlSub_ren {f : Str → Str} (hf : Renaming f) {ns : Str} (hns : NsForm ns) {nss : NsMap} {ks : List Xml}
    {strict : Bool} (hk : KidsRen (F := F) f nss ks) {cs : List (PyType Cls)}
    (hcs : ∀ d, .cls d ∈ cs → '}' ∉ (fastkml.info d).tag) :
    getXmlSub (F := F) fastkml (kidsOf (parse fastkml strict) (ks.map (renXml f))) (f ns) (renMap f nss) cs =
      renOpt f (getXmlSub fastkml (kidsOf (parse fastkml strict) ks) ns nss cs) := by
  induction cs with
  | nil => rfl
  | cons t cs ih =>
    have ih := ih fun d hd => hcs d (by simp [hd])
    cases t <;> try rfl
    rename_i c
    have hl := hcs c (by simp)
    simp only [getXmlSub, find_kidsOf, List.find?_map, decide_renTag hf hns hl]
    cases hfi : ks.find? (fun k => decide (k.tag = ns ++ (fastkml.info c).tag)) with
    | none => exact ih
    | some k =>
      have := hk strict k (List.mem_of_find?_eq_some hfi) c ns hns
      simp only [Option.map_some, this]
      cases parse (F := F) fastkml strict k c ns nss <;> rfl

theorem readAll_ren {f : Str → Str} {ns : Str} (hns : NsForm ns) {nss : NsMap} {ks : List Xml}
    {strict : Bool} (hk : KidsRen (F := F) f nss ks) (c : Cls) :
    readAll (F := F) c (f ns) (renMap f nss) (kidsOf (parse fastkml strict) (ks.map (renXml f))) =
      (readAll c ns nss (kidsOf (parse fastkml strict) ks)).map (fun l => l.map (renVal f)) := by
  induction ks with
  | nil => rfl
  | cons k ks ih =>
    have ih := ih fun s x hx => hk s x (by simp [hx])
    simp only [kidsOf] at ih
    simp only [kidsOf, List.map_cons, readAll, hk strict k (by simp) c ns hns]
    cases parse (F := F) fastkml strict k c ns nss with
    | error e => rfl
    | ok v =>
      simp only [renResult, ih]
      cases readAll (F := F) c ns nss (ks.map fun k => ⟨k.tag, parse fastkml strict k⟩) <;> rfl

theorem getXmlSubList_ren {f : Str → Str} (hf : Renaming f) {ns : Str} (hns : NsForm ns) {nss : NsMap} {ks : List Xml}
    {strict : Bool} (hk : KidsRen (F := F) f nss ks) {cs : List (PyType Cls)}
    (hcs : ∀ d, .cls d ∈ cs → '}' ∉ (fastkml.info d).tag) :
    getXmlSubList (F := F) fastkml (kidsOf (parse fastkml strict) (ks.map (renXml f))) (f ns) (renMap f nss) cs =
      (getXmlSubList fastkml (kidsOf (parse fastkml strict) ks) ns nss cs).map (fun l => l.map (renVal f)) := by
  induction cs with
  | nil => rfl
  | cons t cs ih =>
    have ih := ih fun d hd => hcs d (by simp [hd])
    cases t <;> try rfl
    rename_i c
    have hl := hcs c (by simp)
    have hsub : KidsRen (F := F) f nss (ks.filter fun k => decide (k.tag = ns ++ (fastkml.info c).tag)) :=
      fun s x hx => hk s x (List.mem_filter.mp hx).1
    simp only [getXmlSubList, filter_kidsOf, List.filter_map, decide_renTag hf hns hl, readAll_ren hns hsub, ih]
    cases readAll (F := F) c ns nss (kidsOf (parse fastkml strict)
        (ks.filter fun k => decide (k.tag = ns ++ (fastkml.info c).tag))) with
    | error e => rfl
    | ok vs =>
      simp only [Except.map]
      cases getXmlSubList (F := F) fastkml (kidsOf (parse fastkml strict) ks) ns nss cs with
      | error e => rfl
      | ok ws => simp only [List.map_append]

theorem tags_no_brace (d : Cls) : '}' ∉ (fastkml.info d).tag := by
  have : ∀ d ∈ Cls.all, decide ('}' ∉ (fastkml.info d).tag) = true := by decide +kernel
  exact of_decide_eq_true (this d (Cls.mem_all d))

theorem getKwarg_ren {f : Str → Str} (hf : Renaming f) {ns : Str} (hns : NsForm ns) {nss : NsMap} {e : Xml}
    {strict : Bool} (hk : KidsRen (F := F) f nss e.kids) {it : Item Cls} (hl : '}' ∉ it.node) :
    getKwarg (F := F) fastkml it strict (f ns) (renMap f nss) (renXml f e) (kidsOf (parse fastkml strict) (renXml f e).kids) =
      renOpt f (getKwarg fastkml it strict ns nss e (kidsOf (parse fastkml strict) e.kids)) := by
  unfold getKwarg
  have hstr : ∀ o : Option Str, (Except.ok (o.map Val.str) : Except Err (Option (Val Cls F))) =
      renOpt f (.ok (o.map .str)) := by
    intro o; cases o <;> simp only [Option.map_none, Option.map_some, renOpt, renVal]
  cases it.get <;> simp only
  case nodeText => rw [getNodeText, renXml_text]; exact hstr _
  case subText => rw [getSubText_ren hf hns hl]; exact hstr _
  case attrText => rw [getAttrText_ren hf hns hl]; exact hstr _
  case subBool =>
    rw [getSub_ren hf hns hl]
    split
    · exact wrap_ren f _ (by intro a; simp only [renVal]) _
    · rfl
  case subInt => rw [getSub_ren hf hns hl]; exact wrap_ren f _ (by intro a; simp only [renVal]) _
  case attrInt =>
    simp only [getAttrInt, getAttrText_ren hf hns hl]
    exact wrap_ren f _ (by intro a; simp only [renVal]) _
  case subFloat => rw [getSub_ren hf hns hl]; exact wrap_ren f _ (by intro a; simp only [renVal]) _
  case attrFloat =>
    simp only [getAttr, getAttrText_ren hf hns hl]
    exact wrap_ren f _ (by intro a; simp only [renVal]) _
  case subEnum =>
    split
    · rw [getSub_ren hf hns hl]; exact wrap_ren f _ (by intro a; simp only [renVal]) _
    · rfl
  case attrEnum =>
    split
    · simp only [getAttr, getAttrText_ren hf hns hl]
      exact wrap_ren f _ (by intro a; simp only [renVal]) _
    · rfl
  case subDt => rw [getSub_ren hf hns hl]; exact wrap_ren f _ (by intro a; simp only [renVal]) _
  case subDtList =>
    rw [findall_ren hf hns hl, getDts_ren]; exact wrap_ren f _ (by intro a; simp only [renVal]) _
  case coordsList =>
    rw [findall_ren hf hns hl, getCoordArgs_ren]; exact wrap_ren f _ (by intro a; simp only [renVal]) _
  case coordinates =>
    simp only [getCoordinates, renXml_text]; exact wrap_ren f _ (by intro a; simp only [renVal]) _
  case xmlSub =>
    rw [renXml_kids]
    exact getXmlSub_ren hf hns hk fun d _ => tags_no_brace d
  case xmlSubList =>
    rw [renXml_kids, getXmlSubList_ren hf hns hk fun d _ => tags_no_brace d]
    cases getXmlSubList (F := F) fastkml (kidsOf (parse fastkml strict) e.kids) ns nss it.classes with
    | error e => rfl
    | ok vs => simp only [Except.map, renOpt, renVal_list]

theorem tryNs_ren {f : Str → Str} (hf : Renaming f) {nss : NsMap} (hN : NsOk nss) {e : Xml}
    {strict : Bool} (hk : KidsRen (F := F) f nss e.kids) {it : Item Cls} (hl : '}' ∉ it.node) (ids : List Str) :
    tryNs (F := F) fastkml it strict (renMap f nss) (renXml f e) (kidsOf (parse fastkml strict) (renXml f e).kids) ids =
      renOpt f (tryNs fastkml it strict nss e (kidsOf (parse fastkml strict) e.kids) ids) := by
  induction ids with
  | nil => rfl
  | cons i ids ih =>
    simp only [tryNs, nsGet_ren hf.none, getKwarg_ren hf (nsGet_form hN i) hk hl, ih]
    cases getKwarg (F := F) fastkml it strict (nsGet nss i) nss e (kidsOf (parse fastkml strict) e.kids) with
    | error e => rfl
    | ok o => cases o <;> rfl

theorem dset_ren (f : Str → Str) (a : Str) (v : Val Cls F) (kw : List (Str × Val Cls F)) :
    dset a (renVal f v) (renKw f kw) = renKw f (dset a v kw) := by
  induction kw with
  | nil => rfl
  | cons p kw ih =>
    obtain ⟨k, w⟩ := p
    simp only [renKw] at ih
    simp only [renKw, List.map_cons, dset]
    split
    · rfl
    · simp only [List.map_cons, ih]

theorem getKwargs_ren {f : Str → Str} (hf : Renaming f) {nss : NsMap} (hN : NsOk nss) {e : Xml}
    {strict : Bool} (hk : KidsRen (F := F) f nss e.kids) {items : List (Item Cls)} (hl : ∀ it ∈ items, '}' ∉ it.node)
    (kw : List (Str × Val Cls F)) :
    getKwargs (F := F) fastkml strict (renMap f nss) (renXml f e) (kidsOf (parse fastkml strict) (renXml f e).kids)
        items (renKw f kw) =
      (getKwargs fastkml strict nss e (kidsOf (parse fastkml strict) e.kids) items kw).map (renKw f) := by
  induction items generalizing kw with
  | nil => rfl
  | cons it items ih =>
    have ih := ih fun i hi => hl i (by simp [hi])
    simp only [getKwargs, tryNs_ren hf hN hk (hl it (by simp))]
    cases tryNs (F := F) fastkml it strict nss e (kidsOf (parse fastkml strict) e.kids) it.nsIds with
    | error e => rfl
    | ok o => cases o with
      | none => exact ih kw
      | some v => simp only [renOpt, dset_ren, ih]

/-- Reading a document with other namespaces gives the same with other namespaces. -/
theorem parse_ren {f : Str → Str} (hf : Renaming f) {nss : NsMap} (hN : NsOk nss) (hm : Merged nss) (e : Xml) :
    ∀ (strict : Bool) (c : Cls) (ns : Str),
    parse (F := F) fastkml strict (renXml f e) c (f ns) (renMap f nss) =
      renResult f (parse fastkml strict e c ns nss) := by
  induction e using Xml.ind with
  | h t as x ks ih =>
    intro strict c ns
    rw [parse_eq, parse_eq]
    simp only [parseStep, show mergeNs nss = nss from hm, show mergeNs (renMap f nss) = renMap f nss from merged_ren f hm]
    have hk : KidsRen (F := F) f nss (Xml.mk t as x ks).kids := fun s k hk c ns _ => ih k hk s c ns
    have := getKwargs_ren hf hN hk (strict := strict) (items := fastkml.itemsOf c)
      (fun it hit => (fastkml_namesOk c).node it hit) []
    rw [show renKw f ([] : List (Str × Val Cls F)) = [] from rfl] at this
    rw [this]
    cases getKwargs (F := F) fastkml strict nss (.mk t as x ks) (kidsOf (parse fastkml strict) (Xml.mk t as x ks).kids)
        (fastkml.itemsOf c) [] with
    | error e => rfl
    | ok kw => exact construct_ren f c ns hm kw

end Verif
