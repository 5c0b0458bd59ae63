import Verif.Lemmas.StoreStep
import Verif.Props.Eq

/-!
# Reading into a store
-/

set_option linter.unusedSectionVars false
set_option linter.unusedSimpArgs false

namespace Verif

open Spec

variable {F : Type} [PyExt F]

/-! ## Larger stores -/

theorem value_grow {h h' : Store F} (g : Grow h h') {f f' : Nat → Option (Val Cls F)}
    (hf : ∀ r v, f r = some v → f' r = some v) {x : Ref F} {v : Val Cls F} (hv : h.value f x = some v) :
    h'.value f' x = some v := by
  cases x with
  | val w => exact hv
  | obj r => exact hf r v hv
  | list a =>
    simp only [Store.value] at hv
    split at hv
    · cases hv
    · rename_i hl; cases hv; simp only [Store.value, g.lists _ _ hl]
    · rename_i hl; cases hv; simp only [Store.value, g.lists _ _ hl]
    · rename_i rs hl
      simp only [Store.value, g.lists _ _ hl]
      cases ho : optAll f rs with
      | none => rw [ho] at hv; cases hv
      | some l => rw [ho] at hv; rw [optAll_mono ho (fun r _ y hy => hf r y hy)]; exact hv

/-- Views stay when the store grows. -/
theorem view_grow {h h' : Store F} (g : Grow h h') {n r : Nat} {v : Val Cls F} (hv : h.view n r = some v) :
    h'.view n r = some v := by
  induction n generalizing r v with
  | zero => cases hv
  | succ n ih =>
    obtain ⟨b, as, hb, ho, rfl⟩ := view_obj hv
    simp only [Store.view, g.objs _ _ hb]
    rw [optAll_mono ho ?_]
    · rfl
    · rintro ⟨a, x⟩ _ y hy
      simp only [Store.attrValue, Option.map_eq_some_iff] at hy ⊢
      obtain ⟨w, hw, rfl⟩ := hy
      exact ⟨w, value_grow g (fun r v => ih) hw, rfl⟩

theorem optAll_filter {h : Store F} {f : Nat → Option (Val Cls F)} {l : List (Str × Ref F)} {l' : List (Str × Val Cls F)}
    (ho : optAll (h.attrValue f) l = some l') (keep : Str → Bool) :
    optAll (h.attrValue f) (l.filter fun p => keep p.1) = some (l'.filter fun p => keep p.1) := by
  induction l generalizing l' with
  | nil => cases ho; rfl
  | cons x l ih =>
    simp only [optAll] at ho
    split at ho
    · rename_i y ys hy hys
      cases ho
      have hk : y.1 = x.1 := by
        simp only [Store.attrValue, Option.map_eq_some_iff] at hy
        obtain ⟨w, _, rfl⟩ := hy
        rfl
      simp only [List.filter_cons, hk]
      split
      · simp only [optAll, hy, ih hys]
      · exact ih hys
    · cases ho

/-! ## Results of reading -/

/-- What reading makes: regular objects in which attributes that are not read are unset. -/
structure Loads (c : Cls) (ns : Str) (nss : NsMap) (attrs : List (Str × Val Cls F)) : Prop where
  regular : Regular c ns nss attrs
  hidden : ∀ a v, (a, v) ∈ attrs → visible c a = false → v = .none

/-- All attributes are read. -/
def Open (c : Cls) (_ : Str) (_ : NsMap) (attrs : List (Str × Val Cls F)) : Prop :=
  ∀ a v, (a, v) ∈ attrs → visible c a = true

/-- The type of an attribute. -/
def AttrOk (c : Cls) (a : Str) (v : Val Cls F) : Prop :=
  (∃ it ∈ fastkml.itemsOf c, it.attr = a ∧ it.get ≠ .subDtList ∧ it.get ≠ .coordsList ∧ kindOk dim23 it v = true) ∨
  ((fastkml.info c).special = .track ∧ a = s% "track_items" ∧
    ∃ l, v = .items l ∧ ∀ i ∈ l, i.coord.length = 2 ∨ i.coord.length = 3) ∨
  (visible c a = false ∧ v = .none)

/-- The type of a reference. -/
def XOk (h : Store F) (c : Cls) (a : Str) (x : Ref F) : Prop :=
  (∃ it ∈ fastkml.itemsOf c, it.attr = a ∧ it.get ≠ .subDtList ∧ it.get ≠ .coordsList ∧ refOk h it x) ∨
  ((fastkml.info c).special = .track ∧ a = s% "track_items" ∧ itemsOk h x) ∨
  visible c a = false

theorem xok_ext {h h' : Store F} (g : Ext h h') {c : Cls} {a : Str} {x : Ref F} (hx : XOk h c a x) : XOk h' c a x := by
  rcases hx with ⟨it, hit, ha, h1, h2, hr⟩ | ⟨h1, h2, hr⟩ | hv
  · exact Or.inl ⟨it, hit, ha, h1, h2, refOk_ext g hr⟩
  · exact Or.inr (Or.inl ⟨h1, h2, itemsOk_ext g hr⟩)
  · exact Or.inr (Or.inr hv)

theorem attr_of_mem {attrs : List (Str × Val Cls F)} (hn : (attrs.map Prod.fst).Nodup) {a : Str} {v : Val Cls F}
    (hm : (a, v) ∈ attrs) : attr a attrs = v := by
  induction attrs with
  | nil => cases hm
  | cons p l ih =>
    obtain ⟨k, w⟩ := p
    simp only [List.map_cons, List.nodup_cons] at hn
    rcases List.mem_cons.mp hm with he | hm
    · cases he; simp [attr, dget]
    · have : k ≠ a := by
        rintro rfl
        exact hn.1 (List.mem_map.mpr ⟨_, hm, rfl⟩)
      have h2 := ih hn.2 hm
      simpa [attr, dget, this] using h2

theorem kwRef_of_mem {attrs : List (Str × Ref F)} (hn : (attrs.map Prod.fst).Nodup) {a : Str} {v : Ref F}
    (hm : (a, v) ∈ attrs) : kwRef a attrs = v := by
  induction attrs with
  | nil => cases hm
  | cons p l ih =>
    obtain ⟨k, w⟩ := p
    simp only [List.map_cons, List.nodup_cons] at hn
    rcases List.mem_cons.mp hm with he | hm
    · cases he; simp [kwRef, dget]
    · have : k ≠ a := by
        rintro rfl
        exact hn.1 (List.mem_map.mpr ⟨_, hm, rfl⟩)
      have h2 := ih hn.2 hm
      simpa [kwRef, dget, this] using h2

theorem Loads.attr {c : Cls} {ns : Str} {nss : NsMap} {attrs : List (Str × Val Cls F)} (h : Loads c ns nss attrs)
    {a : Str} {v : Val Cls F} (hm : (a, v) ∈ attrs) : AttrOk c a v := by
  have hn : (attrs.map Prod.fst).Nodup := h.regular.layout ▸ names_nodup c
  have hat := attr_of_mem hn hm
  have hty := h.regular.typed
  simp only [objOk, Bool.and_eq_true, List.all_eq_true, Bool.or_eq_true, decide_eq_true_eq] at hty
  by_cases hv : visible c a = true
  · rcases visible_iff.mp hv with ⟨it, hit, rfl, h1, h2⟩ | ⟨hst, rfl⟩
    · exact Or.inl ⟨it, hit, rfl, h1, h2, hat ▸ hty.1 it hit⟩
    · refine Or.inr (Or.inl ⟨hst, rfl, ?_⟩)
      rcases hty.2 with h2 | h2
      · exact absurd hst h2
      · simp only [trackOk, hat] at h2
        split at h2
        · rename_i l
          refine ⟨l, rfl, ?_⟩
          simpa using h2
        · cases h2
  · have hv' : visible c a = false := by simpa using hv
    exact Or.inr (Or.inr ⟨hv', h.hidden a v hm hv'⟩)

/-! ## Loading -/

/-- What loading an object does. -/
def LoadsTo (v : Val Cls F) : Prop := ∀ c ns nss as, v = .obj c ns nss as → Everywhere Loads v → ∀ t (h : Store F), WT h →
  ∃ h' r, Store.load t v h = (h', .obj r) ∧ WT h' ∧ Grow h h' ∧ (∃ b, h'.objs[r]? = some b ∧ b.cls = c) ∧
    ((∀ a w, (a, w) ∈ as → Everywhere Open w) → ∃ m, h'.view m r = some (.obj c ns nss (as.filter fun p => visible c p.1)))

theorem open_filter {c : Cls} {ns : Str} {nss : NsMap} {as : List (Str × Val Cls F)} (ho : Everywhere Open (.obj c ns nss as)) :
    (as.filter fun p => visible c p.1) = as := by
  rw [List.filter_eq_self]
  intro p hp
  exact ho c ns nss as .self p.1 p.2 hp

theorem loadList_ok {cs : List (PyType Cls)} {l : List (Val Cls F)} (hl : ∀ w ∈ l, LoadsTo w) (hi : ∀ w ∈ l, isInst cs w = true)
    (he : ∀ w ∈ l, Everywhere Loads w) : ∀ (h : Store F), WT h → ∃ h' rs, Store.loadList l h = (h', rs) ∧ WT h' ∧ Grow h h' ∧
      (∀ r ∈ rs, IsA h' r cs) ∧ ((∀ w ∈ l, Everywhere Open w) → ∃ m, optAll (h'.view m) rs = some l) := by
  induction l with
  | nil => intro h hw; exact ⟨h, [], rfl, hw, Grow.refl _, by simp, fun _ => ⟨0, rfl⟩⟩
  | cons w l ih =>
    intro h hw
    have h1 := hi w (by simp)
    cases w with
    | obj c ns nss as =>
      obtain ⟨h1', r, e1, w1, g1, ⟨b, hb, hbc⟩, v1⟩ := hl _ (by simp) c ns nss as rfl (he _ (by simp)) (.objs []) h hw
      obtain ⟨h2', rs, e2, w2, g2, i2, v2⟩ := ih (fun w hm => hl w (List.mem_cons_of_mem _ hm))
        (fun w hm => hi w (List.mem_cons_of_mem _ hm)) (fun w hm => he w (List.mem_cons_of_mem _ hm)) h1' w1
      refine ⟨h2', r :: rs, ?_, w2, g1.trans g2, ?_, ?_⟩
      · simp only [Store.loadList, e1, e2, Ref.addr]
      · intro x hx
        rcases List.mem_cons.mp hx with rfl | hx
        · refine ⟨b, g2.objs _ _ hb, ?_⟩
          subst hbc
          simpa [isInst] using h1
        · exact i2 x hx
      · intro ho
        obtain ⟨m1, hm1⟩ := v1 (fun a w hm => everywhere_attr (ho (.obj c ns nss as) (by simp)) hm)
        rw [open_filter (ho (.obj c ns nss as) (by simp))] at hm1
        obtain ⟨m2, hm2⟩ := v2 (fun w hm => ho w (List.mem_cons_of_mem _ hm))
        refine ⟨max m1 m2, ?_⟩
        have e1 := view_mono (Nat.le_max_left m1 m2) (view_grow g2 hm1)
        have e2 := optAll_mono hm2 (fun r _ y hy => view_mono (Nat.le_max_right m1 m2) hy)
        simp only [optAll, e1, e2]
    | _ => simp [isInst] at h1

theorem load_attr {c : Cls} {a : Str} {v : Val Cls F} (hv : LoadsTo v) (hl : ∀ l, v = .list l → ∀ w ∈ l, LoadsTo w)
    (ha : AttrOk c a v) (he : Everywhere Loads v) (h : Store F) (hw : WT h) :
    ∃ h' x, Store.load (listType c a) v h = (h', x) ∧ WT h' ∧ Grow h h' ∧ XOk h' c a x ∧
      (Everywhere Open v → ∃ m, h'.value (h'.view m) x = some v) := by
  rcases ha with ⟨it, hit, rfl, h1, h2, hk⟩ | ⟨hst, rfl, l, rfl, hdim⟩ | ⟨hvis, rfl⟩
  · rw [listType_eq hit]
    by_cases h3 : it.get = .xmlSub
    · simp only [kindOk, h3] at hk
      cases v with
      | obj c' ns nss as =>
        obtain ⟨h', r, e1, w1, g1, ⟨b, hb, hbc⟩, v1⟩ := hv c' ns nss as rfl he (match it.get with
          | .coordinates => .coords
          | _ => .objs it.classes) h hw
        refine ⟨h', .obj r, e1, w1, g1, Or.inl ⟨it, hit, rfl, h1, h2, ?_⟩, fun ho => ?_⟩
        case refine_2 =>
          obtain ⟨m, hm⟩ := v1 (fun a w hm => everywhere_attr ho hm)
          rw [open_filter ho] at hm
          exact ⟨m, hm⟩
        simp only [refOk, h3]
        refine Or.inr ⟨r, rfl, b, hb, ?_⟩
        subst hbc
        simpa [isInst] using hk
      | none =>
        refine ⟨h, .val .none, by simp only [Store.load], hw, Grow.refl _, Or.inl ⟨it, hit, rfl, h1, h2, ?_⟩, fun _ => ⟨0, rfl⟩⟩
        simp only [refOk, h3]
        exact Or.inl trivial
      | _ => simp [isInst] at hk
    by_cases h4 : it.get = .xmlSubList
    · simp only [kindOk, h4] at hk
      cases v with
      | list l =>
        simp only [List.all_eq_true] at hk
        obtain ⟨h1', rs, e1, w1, g1, i1, v1⟩ := loadList_ok (hl l rfl) hk (fun w hm => everywhere_member he hm) h hw
        refine ⟨(h1'.newList (.objs it.classes) (.objs rs)).1, (h1'.newList (.objs it.classes) (.objs rs)).2, ?_, newList_wt w1 i1,
          g1.trans (grow_newList _ _ _), Or.inl ⟨it, hit, rfl, h1, h2, ?_⟩, ?_⟩
        · simp only [Store.load, e1, h4]
        · simp only [refOk, h4]
          exact ⟨_, _, rfl, newList_get h1' _ _⟩
        · intro ho
          obtain ⟨m, hm⟩ := v1 (fun w hm => everywhere_member ho hm)
          refine ⟨m, ?_⟩
          have g := grow_newList h1' (.objs it.classes) (.objs rs)
          have := optAll_mono hm (fun r _ y hy => view_grow g hy)
          show Store.value _ _ (.list h1'.lists.length) = _
          simp only [Store.value, newList_get, this, Option.map_some]
      | _ => cases hk
    by_cases h5 : it.get = .coordinates
    · simp only [kindOk, h5] at hk
      cases v with
      | coords l =>
        refine ⟨(h.newList .coords (.coords l)).1, (h.newList .coords (.coords l)).2, by simp only [Store.load],
          newList_wt hw hk, grow_newList _ _ _, Or.inl ⟨it, hit, rfl, h1, h2, ?_⟩, fun _ => ⟨0, ?_⟩⟩
        · simp only [refOk, h5]
          exact Or.inr ⟨_, _, rfl, newList_get h _ _⟩
        · show Store.value _ _ (.list h.lists.length) = _
          simp only [Store.value, newList_get]
      | _ => cases hk
    have hleaf := kindOk_plain h3 h4 h1 h2 hk
    have hr : refOk h it (.val v) := by
      cases hg : it.get <;> rw [hg] at h1 h2 h3 h4 h5 <;> simp only [refOk, hg] <;>
        first | exact absurd rfl h1 | exact absurd rfl h2 | exact absurd rfl h3 | exact absurd rfl h4 | exact absurd rfl h5 |
          exact ⟨v, rfl, hk⟩
    have hcase : ∀ t, Store.load t v h = (h, .val v) := by
      intro t
      cases v with
      | obj c ns nss as => exact absurd rfl (hleaf.1 _ _ _ _)
      | list l => exact absurd rfl (hleaf.2 _)
      | coords l => exfalso; cases hg : it.get <;> simp [hg] at h1 h2 h3 h4 h5 <;> simp [kindOk, hg] at hk
      | items l => exfalso; cases hg : it.get <;> simp [hg] at h1 h2 h3 h4 h5 <;> simp [kindOk, hg] at hk
      | _ => simp only [Store.load]
    exact ⟨h, .val v, hcase _, hw, Grow.refl _, Or.inl ⟨it, hit, rfl, h1, h2, hr⟩, fun _ => ⟨0, rfl⟩⟩
  · refine ⟨(h.newList .items (.items l)).1, (h.newList .items (.items l)).2, by simp only [Store.load],
      newList_wt hw hdim, grow_newList _ _ _, Or.inr (Or.inl ⟨hst, rfl, _, _, rfl, newList_get h _ _⟩), fun _ => ⟨0, ?_⟩⟩
    show Store.value _ _ (.list h.lists.length) = _
    simp only [Store.value, newList_get]
  · exact ⟨h, .val .none, by simp only [Store.load], hw, Grow.refl _, Or.inr (Or.inr hvis), fun _ => ⟨0, rfl⟩⟩

theorem loadAttrs_ok {c : Cls} {attrs : List (Str × Val Cls F)} (hv : ∀ a v, (a, v) ∈ attrs → LoadsTo v)
    (hl : ∀ a l, (a, .list l) ∈ attrs → ∀ w ∈ l, LoadsTo w) (ha : ∀ a v, (a, v) ∈ attrs → AttrOk c a v)
    (he : ∀ a v, (a, v) ∈ attrs → Everywhere Loads v) : ∀ (h : Store F), WT h →
    ∃ h' xs, Store.loadAttrs c attrs h = (h', xs) ∧ WT h' ∧ Grow h h' ∧ xs.map Prod.fst = attrs.map Prod.fst ∧
      (∀ a x, (a, x) ∈ xs → XOk h' c a x) ∧
      ((∀ a v, (a, v) ∈ attrs → Everywhere Open v) → ∃ m, optAll (h'.attrValue (h'.view m)) xs = some attrs) := by
  induction attrs with
  | nil => intro h hw; exact ⟨h, [], rfl, hw, Grow.refl _, rfl, by simp, fun _ => ⟨0, rfl⟩⟩
  | cons p l ih =>
    intro h hw
    obtain ⟨a, v⟩ := p
    obtain ⟨h1, x, e1, w1, g1, x1, v1⟩ := load_attr (hv a v (by simp)) (fun l he => hl a l (he ▸ by simp))
      (ha a v (by simp)) (he a v (by simp)) h hw
    obtain ⟨h2, xs, e2, w2, g2, k2, x2, v2⟩ := ih (fun a v hm => hv a v (List.mem_cons_of_mem _ hm))
      (fun a l hm => hl a l (List.mem_cons_of_mem _ hm)) (fun a v hm => ha a v (List.mem_cons_of_mem _ hm))
      (fun a v hm => he a v (List.mem_cons_of_mem _ hm)) h1 w1
    refine ⟨h2, (a, x) :: xs, by simp only [Store.loadAttrs, e1, e2], w2, g1.trans g2, by simp [k2], ?_, ?_⟩
    · intro a' x' hm
      rcases List.mem_cons.mp hm with he | hm
      · cases he; exact xok_ext g2.ext x1
      · exact x2 a' x' hm
    · intro ho
      obtain ⟨m1, hm1⟩ := v1 (ho a v (by simp))
      obtain ⟨m2, hm2⟩ := v2 (fun a v hm => ho a v (List.mem_cons_of_mem _ hm))
      refine ⟨max m1 m2, ?_⟩
      have e1 := value_grow g2 (fun r v hv => view_mono (Nat.le_max_left m1 m2) (view_grow g2 hv)) hm1
      have e2 : optAll (h2.attrValue (h2.view (max m1 m2))) xs = some l := by
        refine optAll_mono hm2 ?_
        rintro ⟨k, y⟩ _ z hz
        simp only [Store.attrValue, Option.map_eq_some_iff] at hz ⊢
        obtain ⟨w, hw, rfl⟩ := hz
        exact ⟨w, value_grow (Grow.refl _) (fun r v hv => view_mono (Nat.le_max_right m1 m2) hv) hw, rfl⟩
      simp only [optAll, e2, Store.attrValue, e1, Option.map_some]

theorem xok_live {h : Store F} {c : Cls} {a : Str} {x : Ref F} (hx : XOk h c a x) (hv : visible c a = true) : Live h x := by
  rcases hx with ⟨it, hit, ha, h1, h2, hr⟩ | ⟨_, _, hr⟩ | hn
  · exact refOk_live h1 h2 hr
  · exact itemsOk_live hr
  · rw [hv] at hn; cases hn

theorem cellOk_of {h : Store F} {b : Cell F} (hk : b.attrs.map Prod.fst = names b.cls)
    (hx : ∀ a x, (a, x) ∈ b.attrs → XOk h b.cls a x) : CellOk h b := by
  have hR := fastkml_readOk b.cls
  have hn : (b.attrs.map Prod.fst).Nodup := hk ▸ names_nodup b.cls
  constructor
  · intro it hit
    by_cases h1 : it.get = .subDtList
    · simp [refOk, h1]
    by_cases h2 : it.get = .coordsList
    · simp [refOk, h2]
    obtain ⟨m, hm, _⟩ := slotOk_slot (hR.slots it hit) h1 h2
    have hmem : it.attr ∈ b.attrs.map Prod.fst := by
      rw [hk]; exact List.mem_append.mpr (Or.inr (List.mem_map.mpr ⟨_, hm, rfl⟩))
    rcases hx _ _ (kwRef_mem hmem) with ⟨it', hit', he, _, _, hr⟩ | ⟨hst, ha, _⟩ | hvis
    · have : it' = it := injOn_of_nodup_map hR.attrs hit' hit he
      subst this
      exact hr
    · exact absurd ha (fun ha => hR.no_trackItems hst it hit ha)
    · rw [visible_iff.mpr (Or.inl ⟨it, hit, rfl, h1, h2⟩)] at hvis; cases hvis
  · intro hst
    have hmem : (s% "track_items") ∈ b.attrs.map Prod.fst := by
      rw [hk]; simp [names, hst]
    rcases hx _ _ (kwRef_mem hmem) with ⟨it', hit', he, _⟩ | ⟨_, _, hr⟩ | hvis
    · exact absurd he (fun ha => hR.no_trackItems hst it' hit' ha)
    · exact hr
    · rw [visible_iff.mpr (Or.inr ⟨hst, rfl⟩)] at hvis; cases hvis
  · rintro ⟨a, x⟩ hm hv
    exact xok_live (hx a x hm) hv

theorem load_ok : ∀ v : Val Cls F, LoadsTo v := by
  refine Val.objInd (fun c ns nss attrs ih1 ih2 => ?_) (fun v hv c ns nss as he => absurd he (hv c ns nss as))
  intro c' ns' nss' as' heq he t h hw
  cases heq
  have hl : Loads c ns nss attrs := he c ns nss attrs .self
  obtain ⟨h1, xs, e1, w1, g1, k1, x1, v1⟩ := loadAttrs_ok (c := c) ih1 ih2 (fun a v hm => hl.attr hm)
    (fun a v hm => everywhere_attr he hm) h hw
  have hc : CellOk h1 ⟨c, ns, nss, xs⟩ := cellOk_of (by simp only; rw [k1, hl.regular.layout]) x1
  refine ⟨h1.newObj ⟨c, ns, nss, xs⟩, h1.objs.length, ?_, newObj_wt w1 hc, g1.trans (grow_newObj _ _), ⟨_, newObj_get h1 _, rfl⟩, ?_⟩
  · simp only [Store.load, e1, Store.addObj]
  · intro ho
    obtain ⟨m, hm⟩ := v1 ho
    refine ⟨m + 1, ?_⟩
    have g := grow_newObj h1 ⟨c, ns, nss, xs⟩
    simp only [Store.view, newObj_get]
    rw [optAll_mono (optAll_filter hm (visible c)) ?_]
    · rfl
    · rintro ⟨k, y⟩ _ z hz
      simp only [Store.attrValue, Option.map_eq_some_iff] at hz ⊢
      obtain ⟨w, hw, rfl⟩ := hz
      exact ⟨w, value_grow g (fun r v hv => view_grow g hv) hw, rfl⟩

/-- Reading leaves attributes that are not registered unset. -/
theorem read_loads {strict : Bool} {e : Xml} {c : Cls} {ns : Str} {nss : NsMap} {v : Val Cls F}
    (h : parse fastkml strict e c ns nss = .ok v) (hco : ∀ d, Sub e d → ¬ BadTuple F d) : Everywhere Loads v := by
  have hreg := C39_read h hco
  have key : ∀ {e c ns nss as ns' nss'},
      parse fastkml strict e c ns nss = .ok (.obj c ns' nss' as) → ∀ a v, (a, v) ∈ as → as.map Prod.fst = names c →
      visible c a = false → v = (.none : Val Cls F) := by
    intro e c ns nss as ns' nss' h a v hm hlay hvis
    have hn : (as.map Prod.fst).Nodup := hlay ▸ names_nodup c
    rw [parse_eq] at h
    simp only [parseStep] at h
    split at h
    · cases h
    · rename_i kw hkw
      have ha : a ∈ names c := hlay ▸ List.mem_map.mpr ⟨_, hm, rfl⟩
      rcases List.mem_append.mp ha with ha | ha
      · split at ha
        · rename_i hst
          simp only [List.mem_singleton] at ha
          rw [visible_iff.mpr (Or.inr ⟨hst, ha⟩)] at hvis
          cases hvis
        · cases ha
      · obtain ⟨⟨a', m⟩, hs, rfl⟩ := List.mem_map.mp ha
        obtain ⟨attrs, w, hv, hw, hd⟩ := construct_slot h (fastkml_readOk c).known hs
        cases hv
        have hva : v = w := by
          have h1 := attr_of_mem hn hm
          simp only [attr, hd, Option.getD_some] at h1
          exact h1.symm
        subst hva
        rcases slot_registered c _ hs with ⟨it, hit, he, hno, _⟩ | ⟨hr, _, hno⟩
        · have h1 : it.get ≠ .subDtList := by intro hg; rw [hg] at hno; cases m <;> cases hno
          have h2 : it.get ≠ .coordsList := by intro hg; rw [hg] at hno; cases m <;> cases hno
          rw [visible_iff.mpr (Or.inl ⟨it, hit, he, h1, h2⟩)] at hvis
          cases hvis
        · have hnone : kwGet a' kw = .none := by
            unfold kwGet
            cases hk : dget a' kw with
            | none => rfl
            | some y =>
              rcases getKwargs_mem hkw (dget_mem hk) with hb | ⟨it, hit, he, _⟩
              · cases hb
              · exact absurd he (hno it hit)
          rw [hnone] at hw
          simp only at hr
          subst hr
          cases hw
          rfl
  intro c' ns' nss' as hi
  have hr := hreg c' ns' nss' as hi
  refine ⟨hr, fun a v hm => ?_⟩
  rcases parse_inside e h hi with heq | ⟨k, hk, d, hkd, _, _, hp⟩
  · obtain ⟨_, as', hv⟩ := parse_typed fastkml_readOk h
    rw [hv] at heq
    cases heq
    exact key (hv ▸ h) a v hm hr.layout
  · exact key hp a v hm hr.layout

/-- All attributes of the class are read. -/
def Concrete (c : Cls) : Prop := ∀ a ∈ names c, visible c a = true

theorem concrete_item (c : Cls) : ∀ it ∈ fastkml.itemsOf c, ∀ d, .cls d ∈ it.classes → Concrete d := by
  have key : ∀ c ∈ Cls.all, ((fastkml.itemsOf c).all fun it => it.classes.all fun
    | .cls d => (names d).all (visible d)
    | _ => true) = true := by decide +kernel
  intro it hit d hd
  have h1 := List.all_eq_true.mp (key c (Cls.mem_all c)) it hit
  have h2 := List.all_eq_true.mp h1 _ hd
  exact fun a ha => List.all_eq_true.mp h2 a ha

/-- The value, or each member of it, is of such a class if it is an object. -/
def RootOk : Val Cls F → Prop
  | .obj c _ _ _ => Concrete c
  | .list l => ∀ c ns nss as, .obj c ns nss as ∈ l → Concrete c
  | _ => True

theorem rootOk_attr {c : Cls} {ns : Str} {nss : NsMap} {attrs : List (Str × Val Cls F)} (h : Loads c ns nss attrs)
    {a : Str} {v : Val Cls F} (hm : (a, v) ∈ attrs) : RootOk v ∧ ∀ l, v = .list l → ∀ w ∈ l, ∀ m, w ≠ .list m := by
  rcases h.attr hm with ⟨it, hit, rfl, h1, h2, hk⟩ | ⟨_, _, l, rfl, _⟩ | ⟨_, rfl⟩
  · by_cases h3 : it.get = .xmlSub
    · simp only [kindOk, h3] at hk
      cases v with
      | obj d ns nss as => exact ⟨concrete_item c it hit d (by simpa [isInst] using hk), by simp⟩
      | none => exact ⟨trivial, by simp⟩
      | _ => simp [isInst] at hk
    by_cases h4 : it.get = .xmlSubList
    · simp only [kindOk, h4] at hk
      cases v with
      | list l =>
        simp only [List.all_eq_true] at hk
        refine ⟨fun d ns nss as hm => concrete_item c it hit d (by simpa [isInst] using hk _ hm), ?_⟩
        rintro l' he w hw m rfl
        cases he
        have := hk _ hw
        simp [isInst] at this
      | _ => cases hk
    have hleaf := kindOk_plain h3 h4 h1 h2 hk
    cases v with
    | obj d ns nss as => exact absurd rfl (hleaf.1 _ _ _ _)
    | list l => exact absurd rfl (hleaf.2 _)
    | _ => exact ⟨trivial, by simp⟩
  · exact ⟨trivial, by simp⟩
  · exact ⟨trivial, by simp⟩

theorem open_of_rootOk {v : Val Cls F} (he : Everywhere Loads v) (hr : RootOk v) (hn : ∀ l, v = .list l → ∀ w ∈ l, ∀ m, w ≠ .list m) :
    Everywhere Open v := by
  intro c ns nss attrs hi
  generalize hx : Val.obj c ns nss attrs = x at hi
  induction hi with
  | self =>
    subst hx
    intro a w hm
    have hl := (he c ns nss attrs .self).regular.layout
    exact hr a (hl ▸ List.mem_map.mpr ⟨_, hm, rfl⟩)
  | attr hm hin ih =>
    have := rootOk_attr (he _ _ _ _ .self) hm
    exact ih (everywhere_attr he hm) this.1 this.2
  | member hm hin ih =>
    rename_i l w
    refine ih (everywhere_member he hm) ?_ ?_
    · cases w with
      | obj d n s as => exact hr d n s as hm
      | list m => exact absurd rfl (hn _ rfl _ hm m)
      | _ => trivial
    · rintro m rfl
      exact absurd rfl (hn _ rfl _ hm m)

/-- Reading into a store: new objects that look like the result. -/
theorem read_view {strict : Bool} {e : Xml} {c : Cls} {ns : Str} {nss : NsMap} {v : Val Cls F}
    (hp : parse fastkml strict e c ns nss = .ok v) (hco : ∀ d, Sub e d → ¬ BadTuple F d) {h : Store F} (hw : WT h) (t : ElemTy) :
    ∃ h' r as, Store.load t v h = (h', .obj r) ∧ Grow h h' ∧ v = .obj c ns (mergeNs nss) as ∧
      ∃ m, h'.view m r = some (.obj c ns (mergeNs nss) (as.filter fun p => visible c p.1)) := by
  obtain ⟨_, as, hv⟩ := parse_typed fastkml_readOk hp
  have hl := read_loads hp hco
  obtain ⟨h', r, e1, _, g, _, hview⟩ := load_ok v c _ _ as hv hl t h hw
  refine ⟨h', r, as, e1, g, hv, hview fun a w hm => ?_⟩
  subst hv
  have := rootOk_attr (hl _ _ _ _ .self) hm
  exact open_of_rootOk (everywhere_attr hl hm) this.1 this.2

/-! ## Every step keeps the types -/

theorem set_get {α : Type} {l : List α} {i j : Nat} {x y : α} (h : (l.set i x)[j]? = some y) :
    (j = i ∧ y = x ∧ i < l.length) ∨ (j ≠ i ∧ l[j]? = some y) := by
  rw [List.getElem?_set] at h
  split at h
  · rename_i he
    split at h
    · rename_i hlt; cases h; exact Or.inl ⟨he.symm, rfl, hlt⟩
    · cases h
  · rename_i he; exact Or.inr ⟨fun h => he h.symm, h⟩

theorem ext_setObj {h : Store F} {r : Nat} {b b' : Cell F} (hb : h.objs[r]? = some b) (hc : b'.cls = b.cls) :
    Ext h ⟨h.objs.set r b', h.lists⟩ := by
  refine ⟨fun s c hs => ?_, fun a t l hl => ⟨l, hl⟩⟩
  by_cases he : r = s
  · subst he
    rw [hb] at hs
    cases hs
    exact ⟨b', by simp [(List.getElem?_eq_some_iff.mp hb).1], hc⟩
  · exact ⟨c, by simpa [List.getElem?_set, he] using hs, rfl⟩

theorem ext_setList {h : Store F} {a : Nat} {t : ElemTy} {l l' : Cells F} (hl : h.lists[a]? = some (t, l)) :
    Ext h ⟨h.objs, h.lists.set a (t, l')⟩ := by
  refine ⟨fun s c hs => ⟨c, hs, rfl⟩, fun a' t' m hm => ?_⟩
  by_cases he : a = a'
  · subst he
    rw [hl] at hm
    cases hm
    exact ⟨l', by simp [(List.getElem?_eq_some_iff.mp hl).1]⟩
  · exact ⟨m, by simpa [List.getElem?_set, he] using hm⟩

theorem setObj_wt {h : Store F} (hw : WT h) {r : Nat} {b b' : Cell F} (hb : h.objs[r]? = some b) (hc : b'.cls = b.cls)
    (hok : CellOk h b') : WT ⟨h.objs.set r b', h.lists⟩ := by
  have g := ext_setObj hb hc
  refine ⟨fun s c hs => cellOk_ext g ?_, fun a t l hl => listOk_ext g (hw.lists a t l hl)⟩
  rcases set_get hs with ⟨_, rfl, _⟩ | ⟨_, hs⟩
  · exact hok
  · exact hw.objs _ _ hs

theorem setList_wt {h : Store F} (hw : WT h) {a : Nat} {t : ElemTy} {l l' : Cells F} (hl : h.lists[a]? = some (t, l))
    (hok : listOk h t l') : WT ⟨h.objs, h.lists.set a (t, l')⟩ := by
  have g := ext_setList (l' := l') hl
  refine ⟨fun s c hs => cellOk_ext g (hw.objs s c hs), fun a' t' m hm => listOk_ext g ?_⟩
  rcases set_get hm with ⟨_, he, _⟩ | ⟨_, hm⟩
  · cases he; exact hok
  · exact hw.lists _ _ _ hm

theorem kwRef_dset {a b : Str} {x : Ref F} {l : List (Str × Ref F)} :
    kwRef b (dset a x l) = if a = b then x else kwRef b l := by
  unfold kwRef
  rw [dget_dset]
  split <;> rfl

theorem assign_cellOk {h : Store F} {b : Cell F} (hb : CellOk h b) {a : Str} {x : Ref F}
    (h1 : ∀ it ∈ fastkml.itemsOf b.cls, it.attr = a → refOk h it x)
    (h2 : (fastkml.info b.cls).special = .track → a = s% "track_items" → itemsOk h x) :
    CellOk h ⟨b.cls, b.ns, b.nss, dset a x b.attrs⟩ := by
  refine ⟨fun it hit => ?_, fun hst => ?_, fun p hp hv => ?_⟩
  · simp only [kwRef_dset]
    split
    · rename_i he; exact h1 it hit he.symm
    · exact hb.items it hit
  · simp only [kwRef_dset]
    split
    · rename_i he; exact h2 hst he
    · exact hb.track hst
  · rcases mem_dset hp with rfl | hp
    · rcases visible_iff.mp hv with ⟨it, hit, ha, g1, g2⟩ | ⟨hst, ha⟩
      · exact refOk_live g1 g2 (h1 it hit ha)
      · exact itemsOk_live (h2 hst ha)
    · exact hb.live p hp hv

/-- The list that `append` changes is registered. -/
theorem growing_item {c : Cls} {a : Str} {own : Bool} (h : growing c = some (a, own)) :
    ∃ it ∈ fastkml.itemsOf c, it.attr = a ∧ it.get = .xmlSubList := by
  have key : ∀ c ∈ Cls.all, (match growing c with
      | none => true
      | some (a, _) => (fastkml.itemsOf c).any fun it => decide (it.attr = a) && decide (it.get = .xmlSubList)) = true := by
    decide +kernel
  have := key c (Cls.mem_all c)
  rw [h] at this
  simpa only [List.any_eq_true, Bool.and_eq_true, decide_eq_true_eq] using this

theorem step_wt {h h' : Store F} {n : Nat} {op : Act F} (hw : WT h) (hok : actOk h op) (hs : h.step n op = .ok h') : WT h' := by
  cases op with
  | list t l =>
    cases hs
    exact newList_wt hw hok
  | change a l =>
    simp only [Store.step] at hs
    split at hs
    · cases hs
    · rename_i t l' hl
      cases hs
      exact setList_wt hw hl (hok t l' hl)
  | make c ns nss kw => exact (make_wt hw hok hs).1
  | read v =>
    cases hs
    obtain ⟨strict, e, c, ns, nss, hp, hco⟩ := hok
    obtain ⟨_, as, hv⟩ := parse_typed fastkml_readOk hp
    obtain ⟨h', r, e1, w1, _⟩ := load_ok v c _ _ as hv (read_loads hp hco) (.objs []) h hw
    rw [e1]
    exact w1
  | assign r a x =>
    simp only [Store.step] at hs
    split at hs
    · cases hs
    · rename_i b hb
      split at hs
      · cases hs
      · cases hs
        obtain ⟨h1, h2⟩ := hok b hb
        exact setObj_wt hw hb rfl (assign_cellOk (hw.objs _ _ hb) h1 h2)
  | rename r ns =>
    simp only [Store.step] at hs
    split at hs
    · cases hs
    · rename_i b hb
      cases hs
      have := hw.objs _ _ hb
      exact setObj_wt hw hb rfl ⟨this.items, this.track, this.live⟩
  | append r x =>
    simp only [Store.step] at hs
    split at hs
    · cases hs
    · rename_i b hb
      split at hs
      · cases hs
      · rename_i a own hg
        split at hs
        · cases hs
        · split at hs
          · rename_i l hl
            split at hs
            · cases hs
            · rename_i t cs hcs
              split at hs
              · cases hs
              · rename_i cs' hpush
                cases hs
                obtain ⟨it, hit, ha, hget⟩ := growing_item hg
                have hx := hok b a own hb hg it hit ha
                have hr := (hw.objs _ _ hb).items it hit
                rw [ha, hl] at hr
                simp only [refOk, hget] at hr
                obtain ⟨l', m, he, hm⟩ := hr
                cases he
                rw [hcs] at hm
                cases hm
                refine setList_wt hw hcs ?_
                have hold := hw.lists _ _ _ hcs
                cases cs with
                | coords m => cases hpush
                | items m => cases hpush
                | objs rs =>
                  cases hpush
                  intro r' hr'
                  rcases List.mem_append.mp hr' with hr' | hr'
                  · exact hold r' hr'
                  · simp only [List.mem_singleton] at hr'
                    subst hr'
                    exact hx
          · cases hs

theorem history_wt {n : Nat} {h : Store F} (hh : History n h) : WT h := by
  induction hh with
  | start => exact ⟨by simp [Store.empty], by simp [Store.empty]⟩
  | step _ hok ih =>
    unfold Store.next
    split
    · rename_i h' hs; exact step_wt ih hok hs
    · exact ih

end Verif
