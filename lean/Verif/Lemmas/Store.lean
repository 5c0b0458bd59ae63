import Verif.Spec.Store
import Verif.Lemmas.Fastkml
import Verif.Lemmas.EqLaws

/-!
# Programs that change objects: lemmas
-/

set_option linter.unusedSectionVars false
set_option linter.unusedSimpArgs false

namespace Verif

open Spec

variable {F : Type} [PyExt F]

/-! ## `optAll` -/

theorem optAll_mem {α β : Type} {f : α → Option β} {l : List α} {m : List β} (h : optAll f l = some m) {y : β} (hy : y ∈ m) :
    ∃ x ∈ l, f x = some y := by
  induction l generalizing m with
  | nil => cases h; cases hy
  | cons x l ih =>
    simp only [optAll] at h
    split at h
    · rename_i y' ys h1 h2
      cases h
      rcases List.mem_cons.mp hy with rfl | hy
      · exact ⟨x, by simp, h1⟩
      · obtain ⟨x', hx', h'⟩ := ih h2 hy
        exact ⟨x', List.mem_cons_of_mem _ hx', h'⟩
    · cases h

theorem optAll_get {α β : Type} {f : α → Option β} {l : List α} {m : List β} (h : optAll f l = some m) {x : α} (hx : x ∈ l) :
    ∃ y, f x = some y ∧ y ∈ m := by
  induction l generalizing m with
  | nil => cases hx
  | cons x' l ih =>
    simp only [optAll] at h
    split at h
    · rename_i y' ys h1 h2
      cases h
      rcases List.mem_cons.mp hx with rfl | hx
      · exact ⟨y', h1, by simp⟩
      · obtain ⟨y, hy, h'⟩ := ih h2 hx
        exact ⟨y, hy, List.mem_cons_of_mem _ h'⟩
    · cases h

theorem optAll_some {α β : Type} {f : α → Option β} {l : List α} (h : ∀ x ∈ l, ∃ y, f x = some y) :
    ∃ m, optAll f l = some m := by
  induction l with
  | nil => exact ⟨[], rfl⟩
  | cons x l ih =>
    obtain ⟨y, hy⟩ := h x (by simp)
    obtain ⟨m, hm⟩ := ih fun x hx => h x (List.mem_cons_of_mem _ hx)
    exact ⟨y :: m, by simp only [optAll, hy, hm]⟩

theorem optAll_congr {α β : Type} {f g : α → Option β} {l : List α} (h : ∀ x ∈ l, f x = g x) :
    optAll f l = optAll g l := by
  induction l with
  | nil => rfl
  | cons x l ih => simp only [optAll, h x (by simp), ih fun x hx => h x (List.mem_cons_of_mem _ hx)]

theorem optAll_mono {α β : Type} {f g : α → Option β} {l : List α} {m : List β} (h : optAll f l = some m)
    (hfg : ∀ x ∈ l, ∀ y, f x = some y → g x = some y) : optAll g l = some m := by
  rw [← h]
  refine (optAll_congr fun x hx => ?_).symm
  obtain ⟨y, hy, _⟩ := optAll_get h hx
  rw [hy, hfg x hx y hy]

/-! ## Views -/

theorem optAll_snoc {α β : Type} {f : α → Option β} {l : List α} {x : α} {m : List β} (h : optAll f (l ++ [x]) = some m) :
    ∃ ms w, optAll f l = some ms ∧ f x = some w ∧ m = ms ++ [w] := by
  induction l generalizing m with
  | nil =>
    simp only [List.nil_append, optAll] at h
    split at h
    · rename_i y ys hy hys
      cases h
      cases hys
      exact ⟨[], y, rfl, hy, rfl⟩
    · cases h
  | cons k l ih =>
    simp only [List.cons_append, optAll] at h
    split at h
    · rename_i y ys hy hys
      cases h
      obtain ⟨ms, w, h1, h2, rfl⟩ := ih hys
      exact ⟨y :: ms, w, by simp only [optAll, hy, h1], h2, rfl⟩
    · cases h

theorem value_mono {h : Store F} {f g : Nat → Option (Val Cls F)} (hfg : ∀ r v, f r = some v → g r = some v) {x : Ref F}
    {v : Val Cls F} (hv : h.value f x = some v) : h.value g x = some v := by
  cases x with
  | val w => exact hv
  | obj r => exact hfg r v hv
  | list a =>
    simp only [Store.value] at hv ⊢
    split at hv
    · cases hv
    · exact hv
    · exact hv
    · rename_i rs _
      cases ho : optAll f rs with
      | none => rw [ho] at hv; cases hv
      | some l => rw [optAll_mono ho fun r _ => hfg r]; rw [ho] at hv; exact hv

theorem view_succ {h : Store F} {n r : Nat} {v : Val Cls F} (hv : h.view n r = some v) : h.view (n + 1) r = some v := by
  induction n generalizing r v with
  | zero => cases hv
  | succ n ih =>
    rw [Store.view] at hv ⊢
    split at hv
    · cases hv
    · rename_i b hb
      cases ho : optAll (h.attrValue (h.view n)) (b.attrs.filter fun p => visible b.cls p.1) with
      | none => rw [ho] at hv; cases hv
      | some as =>
        rw [ho] at hv
        rw [optAll_mono ho ?_]
        · exact hv
        · rintro ⟨a, x⟩ _ y hy
          simp only [Store.attrValue] at hy ⊢
          cases hx : h.value (h.view n) x with
          | none => rw [hx] at hy; cases hy
          | some w => rw [hx] at hy; rw [value_mono (fun r v => ih) hx]; exact hy

theorem view_mono {h : Store F} {n m r : Nat} (hnm : n ≤ m) {v : Val Cls F} (hv : h.view n r = some v) : h.view m r = some v := by
  induction m with
  | zero => cases Nat.le_zero.mp hnm; exact hv
  | succ m ih =>
    by_cases he : n = m + 1
    · subst he; exact hv
    · exact view_succ (ih (by omega))

/-- The attributes of a view. -/
theorem view_obj {h : Store F} {n r : Nat} {v : Val Cls F} (hv : h.view (n + 1) r = some v) :
    ∃ b as, h.objs[r]? = some b ∧
      optAll (h.attrValue (h.view n)) (b.attrs.filter fun p => visible b.cls p.1) = some as ∧ v = .obj b.cls b.ns b.nss as := by
  simp only [Store.view] at hv
  split at hv
  · cases hv
  · rename_i b hb
    cases ho : optAll (h.attrValue (h.view n)) (b.attrs.filter fun p => visible b.cls p.1) with
    | none => rw [ho] at hv; cases hv
    | some as => rw [ho] at hv; cases hv; exact ⟨b, as, hb, ho, rfl⟩

theorem attr_view {h : Store F} {f : Nat → Option (Val Cls F)} {keep : Str → Bool} {l : List (Str × Ref F)}
    {as : List (Str × Val Cls F)} (ho : optAll (h.attrValue f) (l.filter fun p => keep p.1) = some as) {a : Str}
    (ha : keep a = true) : h.value f (kwRef a l) = some (attr a as) := by
  induction l generalizing as with
  | nil => cases ho; rfl
  | cons p l ih =>
    obtain ⟨k, x⟩ := p
    rw [List.filter_cons] at ho
    split at ho
    · rename_i hk
      simp only [optAll] at ho
      split at ho
      · rename_i y ys h1 h2
        cases ho
        simp only [Store.attrValue, Option.map_eq_some_iff] at h1
        obtain ⟨w, hw, rfl⟩ := h1
        by_cases he : k = a
        · subst he; simpa [kwRef, dget, attr] using hw
        · simpa [kwRef, dget, attr, he] using ih h2
      · cases ho
    · rename_i hk
      have he : k ≠ a := by rintro rfl; exact hk ha
      simpa [kwRef, dget, attr, he] using ih ho

theorem attr_hidden {h : Store F} {f : Nat → Option (Val Cls F)} {keep : Str → Bool} {l : List (Str × Ref F)}
    {as : List (Str × Val Cls F)} (ho : optAll (h.attrValue f) (l.filter fun p => keep p.1) = some as) {a : Str}
    (ha : keep a = false) : attr a as = .none := by
  have : dget a as = none := by
    rw [dget_eq_none]
    intro hm
    obtain ⟨⟨k, w⟩, hm', rfl⟩ := List.mem_map.mp hm
    obtain ⟨⟨k', x⟩, hx, he⟩ := optAll_mem ho hm'
    simp only [Store.attrValue, Option.map_eq_some_iff, Prod.mk.injEq] at he
    obtain ⟨_, _, rfl, _⟩ := he
    have := (List.mem_filter.mp hx).2
    simp only at this
    rw [ha] at this
    cases this
  simp [attr, this]

/-! ## Typed stores -/

/-- Not an object, not a list. -/
def IsLeaf (v : Val Cls F) : Prop := (∀ c ns nss as, v ≠ .obj c ns nss as) ∧ ∀ l, v ≠ .list l

/-- The reference is to something. -/
def Live (h : Store F) : Ref F → Prop
  | .val v => IsLeaf v
  | .obj r => r < h.objs.length
  | .list a => a < h.lists.length

/-- An object with attributes of the annotated types. -/
structure CellOk (h : Store F) (b : Cell F) : Prop where
  items : ∀ it ∈ fastkml.itemsOf b.cls, refOk h it (kwRef it.attr b.attrs)
  track : (fastkml.info b.cls).special = .track → itemsOk h (kwRef (s% "track_items") b.attrs)
  live : ∀ p ∈ b.attrs, visible b.cls p.1 = true → Live h p.2

/-- All objects and lists are as annotated. -/
structure WT (h : Store F) : Prop where
  objs : ∀ (r : Nat) b, h.objs[r]? = some b → CellOk h b
  lists : ∀ (a : Nat) t l, h.lists[a]? = some (t, l) → listOk h t l

theorem kindOk_plain {it : Item Cls} (h1 : it.get ≠ .xmlSub) (h2 : it.get ≠ .xmlSubList) (h3 : it.get ≠ .subDtList)
    (h4 : it.get ≠ .coordsList) {v : Val Cls F} (h : kindOk dim23 it v = true) : IsLeaf v := by
  cases hg : it.get <;> simp only [hg, ne_eq, not_true_eq_false] at h1 h2 h3 h4 <;> simp only [kindOk, hg] at h <;>
    cases v <;> first | (cases h; done) | exact ⟨by simp, by simp⟩

theorem refOk_live {h : Store F} {it : Item Cls} {x : Ref F} (h1 : it.get ≠ .subDtList) (h2 : it.get ≠ .coordsList)
    (hx : refOk h it x) : Live h x := by
  by_cases h3 : it.get = .xmlSub
  · simp only [refOk, h3] at hx
    rcases hx with rfl | ⟨r, rfl, b, hb, _⟩
    · exact ⟨by simp, by simp⟩
    · exact (List.getElem?_eq_some_iff.mp hb).1
  by_cases h4 : it.get = .xmlSubList
  · simp only [refOk, h4] at hx
    obtain ⟨a, l, rfl, hl⟩ := hx
    exact (List.getElem?_eq_some_iff.mp hl).1
  by_cases h5 : it.get = .coordinates
  · simp only [refOk, h5] at hx
    rcases hx with ⟨p, rfl, _⟩ | ⟨a, l, rfl, hl⟩
    · exact ⟨by simp, by simp⟩
    · exact (List.getElem?_eq_some_iff.mp hl).1
  have : ∃ v, x = .val v ∧ kindOk dim23 it v = true := by
    cases hg : it.get <;> simp only [hg, ne_eq, not_true_eq_false] at h1 h2 h3 h4 h5 <;> simpa only [refOk, hg] using hx
  obtain ⟨v, rfl, hv⟩ := this
  exact kindOk_plain h3 h4 h1 h2 hv

theorem visible_iff {c : Cls} {a : Str} : visible c a = true ↔
    (∃ it ∈ fastkml.itemsOf c, it.attr = a ∧ it.get ≠ .subDtList ∧ it.get ≠ .coordsList) ∨
    ((fastkml.info c).special = .track ∧ a = s% "track_items") := by
  simp only [visible, Bool.or_eq_true, List.any_eq_true, Bool.and_eq_true, decide_eq_true_eq]
  refine or_congr (exists_congr fun it => and_congr_right fun _ => and_congr_right fun _ => ?_) Iff.rfl
  cases it.get <;> simp

/-- The class of a view. -/
theorem view_cls {h : Store F} {n r : Nat} {v : Val Cls F} (hv : h.view n r = some v) {cs : List (PyType Cls)}
    (hr : IsA h r cs) : isInst cs v = true := by
  cases n with
  | zero => cases hv
  | succ n =>
    obtain ⟨b, as, hb, _, rfl⟩ := view_obj hv
    obtain ⟨b', hb', hc⟩ := hr
    rw [hb] at hb'
    cases hb'
    simpa [isInst] using hc

theorem kindOk_view {h : Store F} (hw : WT h) {n : Nat} {it : Item Cls} {x : Ref F} {v : Val Cls F}
    (hx : refOk h it x) (hv : h.value (h.view n) x = some v) : kindOk dim23 it v = true := by
  by_cases h1 : it.get = .subDtList
  · simp [kindOk, h1]
  by_cases h2 : it.get = .coordsList
  · simp [kindOk, h2]
  by_cases h3 : it.get = .xmlSub
  · simp only [refOk, h3] at hx
    rcases hx with rfl | ⟨r, rfl, hr⟩
    · cases hv; simp [kindOk, h3]
    · have := view_cls hv hr
      simp only [kindOk, h3]
      split
      · rfl
      · exact this
  by_cases h4 : it.get = .xmlSubList
  · simp only [refOk, h4] at hx
    obtain ⟨a, l, rfl, hl⟩ := hx
    have := hw.lists _ _ _ hl
    cases l with
    | coords l => exact this.elim
    | items l => exact this.elim
    | objs rs =>
      simp only [Store.value, hl, Option.map_eq_some_iff] at hv
      obtain ⟨ws, hws, rfl⟩ := hv
      simp only [kindOk, h4, List.all_eq_true]
      intro w hwm
      obtain ⟨r, hr, hrw⟩ := optAll_mem hws hwm
      exact view_cls hrw (this r hr)
  by_cases h5 : it.get = .coordinates
  · simp only [refOk, h5] at hx
    rcases hx with ⟨p, rfl, hp⟩ | ⟨a, l, rfl, hl⟩
    · cases hv; simp only [kindOk, h5]; exact hp
    · have := hw.lists _ _ _ hl
      cases l with
      | coords l =>
        simp only [Store.value, hl] at hv
        cases hv
        simp only [kindOk, h5]
        exact this
      | items l => exact this.elim
      | objs rs => exact this.elim
  have : ∃ w, x = .val w ∧ kindOk dim23 it w = true := by
    cases hg : it.get <;> simp only [hg, ne_eq, not_true_eq_false] at h1 h2 h3 h4 h5 <;> simpa only [refOk, hg] using hx
  obtain ⟨w, rfl, hw⟩ := this
  cases hv
  exact hw

/-- What is seen of a typed store is typed. -/
theorem view_typed {h : Store F} (hw : WT h) {n r : Nat} {v : Val Cls F} (hv : h.view n r = some v) :
    typed fastkml dim23 v = true := by
  induction n generalizing r v with
  | zero => cases hv
  | succ n ih =>
    obtain ⟨b, as, hb, ho, rfl⟩ := view_obj hv
    have hc := hw.objs r b hb
    rw [typed_obj]
    have hval : ∀ a w, (a, w) ∈ as → ∃ x, Live h x ∧ h.value (h.view n) x = some w := by
      intro a w hm
      obtain ⟨⟨k, x⟩, hx, he⟩ := optAll_mem ho hm
      simp only [Store.attrValue, Option.map_eq_some_iff, Prod.mk.injEq] at he
      obtain ⟨w', hw', rfl, rfl⟩ := he
      have := List.mem_filter.mp hx
      exact ⟨x, hc.live _ this.1 this.2, hw'⟩
    refine ⟨?_, ?_, ?_, ?_⟩
    · intro it hit
      by_cases hvis : visible b.cls it.attr = true
      · exact kindOk_view hw (hc.items it hit) (attr_view ho hvis)
      · by_cases h1 : it.get = .subDtList
        · simp [kindOk, h1]
        by_cases h2 : it.get = .coordsList
        · simp [kindOk, h2]
        exact absurd (visible_iff.mpr (Or.inl ⟨it, hit, rfl, h1, h2⟩)) hvis
    · intro ht
      obtain ⟨a, l, hx, hl⟩ := hc.track ht
      have := attr_view ho (visible_iff.mpr (Or.inr ⟨ht, rfl⟩))
      have hlo := hw.lists _ _ _ hl
      rw [hx] at this
      cases l with
      | items l =>
        simp only [Store.value, hl, Option.some.injEq] at this
        simp only [trackOk, ← this, List.all_eq_true, decide_eq_true_eq]
        exact hlo
      | coords l => exact hlo.elim
      | objs rs => exact hlo.elim
    · intro a w hm
      obtain ⟨x, hx, hv⟩ := hval a w hm
      cases x with
      | val u =>
        cases hv
        cases w <;> first | exact absurd rfl (hx.1 _ _ _ _) | simp [typed]
      | obj r => exact ih hv
      | list l =>
        simp only [Store.value] at hv
        split at hv
        · cases hv
        · cases hv; simp [typed]
        · cases hv; simp [typed]
        · simp only [Option.map_eq_some_iff] at hv
          obtain ⟨ws, _, rfl⟩ := hv
          simp [typed]
    · intro a l hm w hwl
      obtain ⟨x, hx, hv⟩ := hval a _ hm
      cases x with
      | val u => cases hv; exact absurd rfl (hx.2 l)
      | obj r =>
        cases n with
        | zero => cases hv
        | succ n => obtain ⟨_, _, _, _, h⟩ := view_obj hv; cases h
      | list k =>
        simp only [Store.value] at hv
        split at hv
        · cases hv
        · cases hv
        · cases hv
        · simp only [Option.map_eq_some_iff] at hv
          obtain ⟨ws, hws, he⟩ := hv
          cases he
          obtain ⟨r, _, hr⟩ := optAll_mem hws hwl
          exact ih hr

/-! ## Depth -/

theorem nodup_bound {n : Nat} : ∀ {l : List Nat}, l.Nodup → (∀ x ∈ l, x < n) → l.length ≤ n := by
  induction n with
  | zero =>
    intro l _ h
    cases l with
    | nil => simp
    | cons x l => exact absurd (h x (by simp)) (by omega)
  | succ n ih =>
    intro l hn h
    have h1 : (l.erase n).length ≤ n := by
      refine ih (hn.erase n) fun x hx => ?_
      have hx' := (List.Nodup.mem_erase_iff hn).mp hx
      have := h x hx'.2
      omega
    have h2 : l.length ≤ (l.erase n).length + 1 := by
      rw [List.length_erase]
      split <;> omega
    omega

theorem below_snoc {h : Store F} {r s p : Nat} (hb : Beneath h r p) (hs : HoldsObj h r s) : Beneath h s p := by
  induction hb with
  | held h1 => exact .deeper h1 (.held hs)
  | deeper h1 _ ih => exact .deeper h1 (ih hs)

/-- No object contains itself. -/
def Free (h : Store F) (r : Nat) : Prop := ∀ s, (s = r ∨ Beneath h s r) → ¬ Beneath h s s

theorem Free.held {h : Store F} {r s : Nat} (hf : Free h r) (hs : HoldsObj h r s) : Free h s := by
  intro t ht
  refine hf t (Or.inr ?_)
  rcases ht with rfl | ht
  · exact .held hs
  · exact .deeper hs ht

theorem view_exists {h : Store F} (hw : WT h) (k : Nat) : ∀ {r : Nat} (path : List Nat), path.Nodup →
    (∀ p ∈ path, p < h.objs.length ∧ Beneath h r p) → r < h.objs.length → Free h r → h.objs.length ≤ path.length + k →
    ∃ v, h.view k r = some v := by
  induction k with
  | zero =>
    intro r path hn hp hr hf hl
    have hnr : r ∉ path := fun hm => hf r (Or.inl rfl) (hp r hm).2
    have := nodup_bound (n := h.objs.length) (l := r :: path) (List.nodup_cons.mpr ⟨hnr, hn⟩) (by
      intro x hx
      rcases List.mem_cons.mp hx with rfl | hx
      · exact hr
      · exact (hp x hx).1)
    simp only [List.length_cons] at this
    omega
  | succ k ih =>
    intro r path hn hp hr hf hl
    have hnr : r ∉ path := fun hm => hf r (Or.inl rfl) (hp r hm).2
    obtain ⟨b, hb⟩ : ∃ b, h.objs[r]? = some b := ⟨_, List.getElem?_eq_getElem hr⟩
    have hc := hw.objs r b hb
    have hobj : ∀ s, HoldsObj h r s → s < h.objs.length → ∃ v, h.view k s = some v := by
      intro s hs hlt
      refine ih (r :: path) (List.nodup_cons.mpr ⟨hnr, hn⟩) ?_ hlt (hf.held hs) (by simp only [List.length_cons]; omega)
      intro p hpm
      rcases List.mem_cons.mp hpm with rfl | hpm
      · exact ⟨hr, .held hs⟩
      · exact ⟨(hp p hpm).1, below_snoc (hp p hpm).2 hs⟩
    have hval : ∀ p ∈ b.attrs.filter (fun p => visible b.cls p.1), ∃ y, h.attrValue (h.view k) p = some y := by
      rintro ⟨a, x⟩ hm
      have hm := List.mem_filter.mp hm
      have hlive := hc.live _ hm.1 hm.2
      simp only [Store.attrValue]
      have : ∃ v, h.value (h.view k) x = some v := by
        cases x with
        | val v => exact ⟨v, rfl⟩
        | obj s => exact hobj s ⟨b, a, _, hb, hm.1, hm.2, Or.inl rfl⟩ hlive
        | list l =>
          obtain ⟨⟨t, cs⟩, hcs⟩ : ∃ c, h.lists[l]? = some c := ⟨_, List.getElem?_eq_getElem hlive⟩
          have hlo := hw.lists _ _ _ hcs
          simp only [Store.value, hcs]
          cases cs with
          | coords l => exact ⟨_, rfl⟩
          | items l => exact ⟨_, rfl⟩
          | objs rs =>
            cases t with
            | coords => exact hlo.elim
            | items => exact hlo.elim
            | objs ct =>
              obtain ⟨m, hm'⟩ := optAll_some (f := h.view k) (l := rs) (by
                intro s hs
                obtain ⟨bs, hbs, _⟩ := hlo s hs
                exact hobj s ⟨b, a, _, hb, hm.1, hm.2, Or.inr ⟨l, _, rs, rfl, hcs, hs⟩⟩ (List.getElem?_eq_some_iff.mp hbs).1)
              exact ⟨.list m, by simp only [hm', Option.map_some]⟩
      obtain ⟨v, hv⟩ := this
      exact ⟨(a, v), by simp only [hv, Option.map_some]⟩
    obtain ⟨as, has⟩ := optAll_some hval
    exact ⟨_, by simp only [Store.view, hb, has, Option.map_some]; rfl⟩

theorem view_held {h : Store F} {n r s : Nat} {v : Val Cls F} (hv : h.view n r = some v) (hs : HoldsObj h r s) :
    ∃ m w, m < n ∧ h.view m s = some w := by
  cases n with
  | zero => cases hv
  | succ n =>
    obtain ⟨b, as, hb, ho, rfl⟩ := view_obj hv
    obtain ⟨b', a, x, hb', hm, hvis, hx⟩ := hs
    rw [hb] at hb'
    cases hb'
    obtain ⟨y, hy, _⟩ := optAll_get ho (x := (a, x)) (List.mem_filter.mpr ⟨hm, hvis⟩)
    simp only [Store.attrValue, Option.map_eq_some_iff] at hy
    obtain ⟨w, hw, -⟩ := hy
    rcases hx with rfl | ⟨l, t, rs, rfl, hl, hs⟩
    · exact ⟨n, w, Nat.lt_succ_self n, hw⟩
    · simp only [Store.value, hl, Option.map_eq_some_iff] at hw
      obtain ⟨ws, hws, -⟩ := hw
      obtain ⟨u, hu, _⟩ := optAll_get hws hs
      exact ⟨n, u, Nat.lt_succ_self n, hu⟩

theorem view_below {h : Store F} {r s : Nat} (hs : Beneath h s r) {n : Nat} {v : Val Cls F} (hv : h.view n r = some v) :
    ∃ m w, m < n ∧ h.view m s = some w := by
  induction hs generalizing n v with
  | held h1 => exact view_held hv h1
  | deeper h1 _ ih =>
    obtain ⟨m, w, hm, hw⟩ := view_held hv h1
    obtain ⟨m', w', hm', hw'⟩ := ih hw
    exact ⟨m', w', by omega, hw'⟩

theorem view_cycle {h : Store F} {s : Nat} (hs : Beneath h s s) (n : Nat) : h.view n s = none := by
  induction n using Nat.strongRecOn with
  | ind n ih =>
    cases hv : h.view n s with
    | none => rfl
    | some v =>
      obtain ⟨m, w, hm, hw⟩ := view_below hs hv
      rw [ih m hm] at hw
      cases hw

theorem view_not_free {h : Store F} {r : Nat} (hf : ¬ Free h r) (n : Nat) : h.view n r = none := by
  simp only [Free, Classical.not_forall, Classical.not_not] at hf
  obtain ⟨s, hs, hc⟩ := hf
  rcases hs with rfl | hs
  · exact view_cycle hc n
  · cases hv : h.view n r with
    | none => rfl
    | some v =>
      obtain ⟨m, w, _, hw⟩ := view_below hs hv
      rw [view_cycle hc m] at hw
      cases hw

end Verif
