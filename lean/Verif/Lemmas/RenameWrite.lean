import Verif.Lemmas.Rename
import Verif.Lemmas.Write
import Verif.Lemmas.Canonical

/-!
# Writing objects with other namespaces
-/

set_option linter.unusedSectionVars false
set_option linter.unusedSimpArgs false

namespace Verif

open Spec

variable {F : Type} [PyExt F]

/-- The names of XML attributes that are written: without namespace, and not a
namespace declaration. -/
def PlainKeys (as : List (Str × Str)) : Prop := ∀ p ∈ as, '}' ∉ p.1 ∧ p.1 ≠ s% "xmlns"

/-- `R` renames written elements with `g`. -/
def Renames (g : Str → Str) (R : Xml → Xml) : Prop :=
  ∀ n l as x ks, NsForm n → '}' ∉ l → PlainKeys as → R (.mk (n ++ l) as x ks) = .mk (g n ++ l) as x (ks.map R)

/-- The conditions on an object. -/
structure Movable (g : Str → Str) (c : Cls) (ns : Str) (nss : NsMap) (_ : List (Str × Val Cls F)) : Prop where
  form : NsForm ns
  ok : NsOk nss
  ids : ∀ i, i = s% "kml" ∨ i = s% "gx" → nsGet (renMap g nss) i = g (nsGet nss i)
  kml : (fastkml.info c).special = .kml → ns ≠ [] ∧ g ns ≠ []

/-- The same contribution with other namespaces. -/
def Contrib.rename (R : Xml → Xml) (k : Contrib) : Contrib := ⟨k.attr, k.text, k.kids.map R⟩

/-- The same view with other namespaces. -/
def SView.rename (g : Str → Str) (R : Xml → Xml) (s : SView Cls F) : SView Cls F :=
  ⟨renVal g s.v, s.truthy, s.xml.map R, s.elems.map fun p => (p.1, p.2.map R)⟩

theorem getValue_ren (g : Str → Str) (v : Val Cls F) (vb : Verbosity) (d : Dflt) :
    getValue (renVal g v) vb d = renVal g (getValue v vb d) := by
  have he : eqDflt (renVal g v) d = eqDflt v d := by
    cases v <;> simp only [renVal] <;> first | rfl | (simp only [eqDflt])
  have hd : renVal g (d.val : Val Cls F) = d.val := by cases d <;> simp only [Dflt.val, renVal]
  simp only [getValue, notNone_ren, he]
  split
  · exact hd.symm
  · split
    · simp only [renVal]
    · rfl

theorem elemKids_ren (R : Xml → Xml) (l : List (Except Err Bool × Except Err Xml)) :
    elemKids (l.map fun p => (p.1, p.2.map R)) = (elemKids l).map fun xs => xs.map R := by
  induction l with
  | nil => rfl
  | cons p l ih =>
    obtain ⟨t, x⟩ := p
    simp only [List.map_cons, elemKids, ih]
    cases t with
    | error e => rfl
    | ok b =>
      cases b with
      | false => rfl
      | true =>
        cases x with
        | error e => rfl
        | ok x =>
          simp only [Except.map]
          cases elemKids l with
          | error e => rfl
          | ok xs => rfl

theorem leaf_ren {g : Str → Str} {R : Xml → Xml} (hR : Renames g R) {n l : Str} (hn : NsForm n) (hl : '}' ∉ l)
    (s : Str) : R (.leaf (n ++ l) s) = .leaf (g n ++ l) s := by
  have := hR n l [] (some s) [] hn hl (by intro p hp; cases hp)
  exact this

theorem enumNsId_known {e : EnumId} {x i : Str} (h : enumNsId e x = some i) : i = s% "kml" ∨ i = s% "gx" := by
  cases e <;> simp only [enumNsId] at h <;> try (cases h; done)
  split at h
  · cases h; exact Or.inr rfl
  · cases h; exact Or.inl rfl

theorem contrib_ren {g : Str → Str} {R : Xml → Xml} (hR : Renames g R) {it : Item Cls} (hl : '}' ∉ it.node)
    {ns : Str} {nss : NsMap} (hns : NsForm ns) (hN : NsOk nss)
    (hid : ∀ i, i = s% "kml" ∨ i = s% "gx" → nsGet (renMap g nss) i = g (nsGet nss i)) (o : Opts) (s : SView Cls F) :
    contrib it (g ns) (renMap g nss) o (s.rename g R) = (contrib it ns nss o s).map (Contrib.rename R) := by
  have hstr : ∀ v : Val Cls F, strText (renVal g v) = strText v := by
    intro v; cases v <;> simp only [renVal, strText]
  have hnum : ∀ v : Val Cls F, numText (renVal g v) = numText v := by
    intro v; cases v <;> simp only [renVal, numText, pyStr]
  have hleafK : ∀ r, leafK (g ns ++ it.node) r = (leafK (ns ++ it.node) r).map (Contrib.rename R) := by
    intro r
    cases r with
    | error e => rfl
    | ok o => cases o with
      | none => rfl
      | some s => simp only [leafK, Except.map, Contrib.rename, List.map_cons, List.map_nil, leaf_ren hR hns hl]
  have hattrK : ∀ r, attrK it.node r = (attrK it.node r).map (Contrib.rename R) := by
    intro r
    cases r with
    | error e => rfl
    | ok o => cases o <;> rfl
  have htextK : ∀ r, textK r = (textK r).map (Contrib.rename R) := by
    intro r
    cases r with
    | error e => rfl
    | ok o => cases o <;> rfl
  unfold contrib
  simp only [SView.rename, getValue_ren]
  generalize getValue s.v o.verbosity it.dflt = v
  cases it.set <;> simp only
  case nodeText => rw [hstr]; exact htextK _
  case subText => rw [hstr]; exact hleafK _
  case attrText => rw [hstr]; exact hattrK _
  case subInt => rw [hnum]; exact hleafK _
  case attrInt => rw [hnum]; exact hattrK _
  case subFloat => rw [hnum]; exact hleafK _
  case attrFloat => rw [hnum]; exact hattrK _
  case subBool => cases v <;> simp only [renVal] <;> exact hleafK _
  case attrEnum => cases v <;> simp only [renVal] <;> exact hattrK _
  case subEnum =>
    cases v <;> simp only [renVal] <;> try rfl
    rename_i e x
    simp only [Except.map, Contrib.rename, List.map_cons, List.map_nil, getNs, nsIdOf]
    cases hi : enumNsId e x with
    | none => simp only [leaf_ren hR hns hl]
    | some i => simp only [leaf_ren hR (nsGet_form hN i) hl, hid i (enumNsId_known hi)]
  case subDt =>
    cases v <;> simp only [renVal] <;> try rfl
    rename_i k
    simp only [Except.map, Contrib.rename, List.map_cons, List.map_nil, getNs, nsIdOf]
    simp only [leaf_ren hR (nsGet_form hN _) hl, hid _ (Or.inl rfl)]
  case subDtList =>
    cases v <;> simp only [renVal] <;> try rfl
    rename_i ws
    simp only [Except.map, Contrib.rename, List.map_map]
    congr 2
    refine List.map_congr_left fun w _ => ?_
    cases w with
    | none => simp only [Function.comp, whenLeaf, leaf_ren hR hns hl]
    | some k => simp only [Function.comp, whenLeaf, leaf_ren hR (nsGet_form hN _) hl, hid _ (Or.inl rfl)]
  case coordsList =>
    cases v <;> simp only [renVal] <;> try rfl
    · rename_i fl; cases fl.isEmpty <;> rfl
    · simp only [Except.map, Contrib.rename, List.map_map]
      congr 2
      exact List.map_congr_left fun w _ => by simp only [Function.comp, leaf_ren hR hns hl]
  case coordinates =>
    cases s.v <;> simp only [renVal] <;> try rfl
    rename_i l
    cases l with
    | nil => rfl
    | cons c l => by_cases h : c.length = 2 ∨ c.length = 3 <;> simp only [h, if_true, if_false] <;> rfl
  case xmlSub =>
    cases s.truthy with
    | error e => rfl
    | ok b =>
      cases b with
      | false => rfl
      | true => cases s.xml <;> rfl
  case xmlSubList =>
    cases s.v <;> simp only [renVal] <;> try rfl
    rw [elemKids_ren]
    cases elemKids s.elems <;> rfl

theorem contrib_key {it : Item Cls} {ns : Str} {nss : NsMap} {o : Opts} {s : SView Cls F} {k : Contrib}
    (h : contrib it ns nss o s = .ok k) {p : Str × Str} (hp : k.attr = some p) : p.1 = it.node := by
  have hleafK : ∀ t r, leafK t r = .ok k → k.attr = none := by
    intro t r h
    cases r with
    | error e => cases h
    | ok o => cases o <;> (simp only [leafK, Except.ok.injEq] at h; subst h; rfl)
  have htextK : ∀ r, textK r = .ok k → k.attr = none := by
    intro r h
    cases r with
    | error e => cases h
    | ok o => cases o <;> (simp only [textK, Except.ok.injEq] at h; subst h; rfl)
  have hattrK : ∀ r, attrK it.node r = .ok k → p.1 = it.node := by
    intro r h
    cases r with
    | error e => cases h
    | ok o =>
      cases o <;> (simp only [attrK, Except.ok.injEq] at h; subst h)
      · cases hp
      · cases hp; rfl
  have no : k.attr = none → p.1 = it.node := by intro h; rw [h] at hp; cases hp
  unfold contrib at h
  cases hs : it.set <;> simp only [hs] at h
  case nodeText => exact no (htextK _ h)
  case subText | subBool | subInt | subFloat => exact no (hleafK _ _ h)
  case attrText | attrInt | attrFloat | attrEnum => exact hattrK _ h
  all_goals
    refine no ?_
    repeat' split at h
    all_goals first | (cases h; done) | (simp only [Except.ok.injEq] at h; subst h; rfl)

/-- No name that is written as an attribute declares a namespace. -/
theorem nodes_plain (c : Cls) : ∀ it ∈ fastkml.itemsOf c, it.node ≠ s% "xmlns" := by
  have : ∀ c ∈ Cls.all, (fastkml.itemsOf c).all (fun it => !(it.node == s% "xmlns")) = true := by decide +kernel
  have := this c (Cls.mem_all c)
  rw [List.all_eq_true] at this
  intro it hit he
  have h := this it hit
  rw [he] at h
  revert h; decide

theorem plainKeys_dset {as : List (Str × Str)} (h : PlainKeys as) {k v : Str} (hk : '}' ∉ k ∧ k ≠ s% "xmlns") :
    PlainKeys (dset k v as) := by
  induction as with
  | nil =>
    intro p hp
    simp only [dset, List.mem_singleton] at hp
    subst hp; exact hk
  | cons q as ih =>
    obtain ⟨a, w⟩ := q
    have ih := ih fun p hp => h p (List.mem_cons_of_mem _ hp)
    simp only [dset]
    split
    · intro p hp
      rcases List.mem_cons.mp hp with rfl | hp
      · first | exact hk | (rename_i hh; exact h (a, w) (by simp))
      · exact h p (by simp [hp])
    · intro p hp
      rcases List.mem_cons.mp hp with rfl | hp
      · exact h (a, w) (by simp)
      · exact ih p hp

theorem setAll_ren {g : Str → Str} {R : Xml → Xml} (hR : Renames g R) {items : List (Item Cls)}
    (hl : ∀ it ∈ items, '}' ∉ it.node ∧ it.node ≠ s% "xmlns") {ns : Str} {nss : NsMap} (hns : NsForm ns) (hN : NsOk nss)
    (hid : ∀ i, i = s% "kml" ∨ i = s% "gx" → nsGet (renMap g nss) i = g (nsGet nss i)) (o : Opts) (sp : Special)
    {A B : List (Str × SView Cls F)} (hAB : ∀ a, getattr sp B a = (getattr sp A a).rename g R)
    {n l : Str} (hn : NsForm n) (hll : '}' ∉ l) (as : List (Str × Str)) (has : PlainKeys as) (x : Option Str)
    (ks : List Xml) :
    setAll (g ns) (renMap g nss) o sp B items (.mk (g n ++ l) as x (ks.map R)) =
      (setAll ns nss o sp A items (.mk (n ++ l) as x ks)).map R := by
  induction items generalizing as x ks with
  | nil => simp only [setAll, Except.map, hR n l as x ks hn hll has]
  | cons it items ih =>
    have ih := ih fun i hi => hl i (by simp [hi])
    have hit := hl it (by simp)
    simp only [setAll, setElement_eq, hAB, contrib_ren hR hit.1 hns hN hid]
    cases hk : contrib it ns nss o (getattr sp A it.attr) with
    | error e => rfl
    | ok k =>
      simp only [Except.map, Contrib.apply, Contrib.rename, Xml.tag, Xml.attrs, Xml.text, Xml.kids, ← List.map_append]
      refine ih _ ?_ _ _
      cases hp : k.attr with
      | none => exact has
      | some p => exact plainKeys_dset has (contrib_key hk hp ▸ hit)

theorem itemsOf'_ren (g : Str → Str) (attrs : List (Str × Val Cls F)) : itemsOf' (renAttrs g attrs) = itemsOf' attrs := by
  simp only [itemsOf', renAttrs_eq, attrOf_ren]
  cases attrOf (s% "track_items") attrs <;> simp only [renVal]

theorem propOf_ren (g : Str → Str) (sp : Special) (attrs : List (Str × Val Cls F)) (a : Str) :
    propOf sp (renAttrs g attrs) a = renVal g (propOf sp attrs a) := by
  simp only [propOf, itemsOf'_ren]
  split
  · simp only [renVal]
  · split
    · simp only [renVal]
    · split
      · simp only [renVal]
      · rw [renAttrs_eq, attrOf_ren]

theorem attrOf_mem_or {a : Str} (attrs : List (Str × Val Cls F)) : attrOf a attrs = .none ∨ (a, attrOf a attrs) ∈ attrs := by
  unfold attrOf
  cases h : dget a attrs with
  | none => exact Or.inl rfl
  | some v => exact Or.inr (dget_mem h)

theorem getattr_ren {g : Str → Str} {R : Xml → Xml} (o : Opts) (sp : Special) {attrs : List (Str × Val Cls F)}
    (h1 : ∀ a v, (a, v) ∈ attrs → ser fastkml o (renVal g v) = (ser fastkml o v).map R)
    (h2 : ∀ a l, (a, Val.list l) ∈ attrs → ∀ v ∈ l, ser fastkml o (renVal g v) = (ser fastkml o v).map R) (a : Str) :
    getattr sp (serAttrs fastkml o (renAttrs g attrs)) a = (getattr sp (serAttrs fastkml o attrs) a).rename g R := by
  rw [getattr_serAttrs, getattr_serAttrs, propOf_ren]
  split
  · rename_i h
    simp only [SView.prop, SView.rename, List.map_nil, Except.map]
  · rename_i h
    have hp : propOf sp attrs a = attrOf a attrs := by
      unfold propOf
      by_cases hs : sp = .track
      · have h1 : a ≠ s% "whens" := fun hh => h ⟨hs, Or.inl hh⟩
        have h2 : a ≠ s% "coords" := fun hh => h ⟨hs, Or.inr (Or.inl hh)⟩
        have h3 : a ≠ s% "angles" := fun hh => h ⟨hs, Or.inr (Or.inr hh)⟩
        simp only [h1, h2, h3, and_false, if_false]
      · simp only [hs, false_and, if_false]
    rw [hp]
    simp only [sview, SView.rename, truthy_ren]
    rcases attrOf_mem_or (a := a) attrs with hn | hm
    · rw [hn]; simp only [renVal, ser, serMembers, Except.map, List.map_nil]
    · rw [h1 _ _ hm]
      congr 1
      generalize attrOf a attrs = v at hm
      cases v <;> try (simp only [renVal, serMembers, List.map_nil]; done)
      rename_i l
      · rw [renVal_list, serMembers_list, serMembers_list, List.map_map, List.map_map]
        refine List.map_congr_left fun v hv => ?_
        simp only [Function.comp, truthy_ren, h2 _ _ hm v hv]

theorem ser_features_ren {g : Str → Str} {R R0 : Xml → Xml} {s : SView Cls F} {n n' l : Str} {as as' : List (Str × Str)}
    (hR : ∀ ks, R0 (.mk (n ++ l) as none ks) = .mk (n' ++ l) as' none (ks.map R)) :
    setXmlSubList (s.rename g R) (.mk (n' ++ l) as' none []) = (setXmlSubList s (.mk (n ++ l) as none [])).map R0 := by
  simp only [setXmlSubList, SView.rename]
  have h0 := hR []
  simp only [List.map_nil] at h0
  cases s.v <;> simp only [renVal] <;> try (simp only [Except.map, h0]; done)
  rw [serElems_eq, serElems_eq, elemKids_ren]
  cases elemKids s.elems with
  | error e => rfl
  | ok xs =>
    simp only [Except.map, Contrib.apply, Xml.tag, Xml.attrs, Xml.text, Xml.kids, List.nil_append, hR]

/-- Writing an object with other namespaces gives the same with other namespaces. -/
theorem ser_ren {g : Str → Str} {R : Xml → Xml} (hR : Renames g R) (o : Opts) (v : Val Cls F) :
    Everywhere (Movable g) v → ser fastkml o (renVal g v) = (ser fastkml o v).map R := by
  induction v using Val.objInd with
  | hother v hv => intro _; cases v <;> simp only [renVal, ser, Except.map] <;> exact absurd rfl (hv _ _ _ _)
  | hobj c ns nss attrs ih ih2 =>
    intro h
    have K := h c ns nss attrs .self
    have h1 : ∀ a v, (a, v) ∈ attrs → ser fastkml o (renVal g v) = (ser fastkml o v).map R :=
      fun a v hm => ih a v hm (everywhere_attr h hm)
    have h2 : ∀ a l, (a, Val.list l) ∈ attrs → ∀ v ∈ l, ser fastkml o (renVal g v) = (ser fastkml o v).map R :=
      fun a l hm v hv => ih2 a l hm v hv (everywhere_member (everywhere_attr h hm) hv)
    rw [renVal_obj, ser_obj, ser_obj]
    rw [← renAttrs_eq]
    have hg := getattr_ren (R := R) o (fastkml.info c).special h1 h2
    simp only [serStep, Xml.new]
    by_cases hk : (fastkml.info c).special = .kml
    · simp only [hk, if_true, (K.kml hk).1, (K.kml hk).2, if_false]
      rw [hk] at hg
      rw [hg]
      exact ser_features_ren fun ks => hR _ _ _ _ ks K.form (tags_no_brace c) (by intro p hp; cases hp)
    · simp only [hk, if_false]
      exact setAll_ren hR (fun it hit => ⟨(fastkml_namesOk c).node it hit, nodes_plain c it hit⟩) K.form K.ok K.ids o _ hg
        K.form (tags_no_brace c) [] (by intro p hp; cases hp) none []

/-- Renaming all tags renames what is written. -/
theorem renames_renXml (f : Str → Str) : Renames f (renXml f) := by
  intro n l as x ks hn hl has
  rw [renXml_mk, renTag_tag hn hl]
  congr 1
  conv => rhs; rw [← List.map_id as]
  refine List.map_congr_left fun p hp => ?_
  have : nsPart p.1 = [] := by
    have := (nsPart_tag (ns := []) (Or.inl rfl) (has p hp).1).1
    simpa using this
  simp only [renKey, this, if_true, id]

theorem renaming_ne {f : Str → Str} (hf : Renaming f) {n : Str} (hn : NsForm n) (h : n ≠ []) : f n ≠ [] := by
  intro h0
  exact h (hf.inj n [] hn (Or.inl rfl) (h0.trans hf.none.symm))

/-! ## Default namespaces -/

theorem resolveKids_eq (d : Str) (ks : List Xml) : resolveKids d ks = ks.map (resolve d) := by
  induction ks with
  | nil => simp [resolveKids]
  | cons k ks ih => simp only [resolveKids, ih, List.map_cons]

theorem renames_resolve (d : Str) : Renames (putInto d) (resolve d) := by
  intro n l as x ks hn hl has
  have h1 : dget (s% "xmlns") as = none := by
    rw [dget_eq_none]
    intro h
    obtain ⟨p, hp, he⟩ := List.mem_map.mp h
    exact (has p hp).2 he
  have h2 : as.filter (fun p => decide (p.1 ≠ s% "xmlns")) = as := by
    rw [List.filter_eq_self]
    intro p hp
    exact decide_eq_true (has p hp).2
  simp only [resolve, defaultNs, h1, h2, resolveKids_eq, resolveTag, (nsPart_tag hn hl).1, putInto]
  split
  · rename_i h; subst h; rfl
  · rfl

theorem resolve_root (ks : List Xml) :
    resolve [] (.mk ([] ++ s% "kml") [(s% "xmlns", kmlUri)] none ks) =
      .mk (nsGet defaultNameSpaces (s% "kml") ++ s% "kml") [] none (ks.map (resolve (nsGet defaultNameSpaces (s% "kml")))) := by
  simp only [resolve, resolveKids_eq]
  rfl

end Verif
