import Verif.Lemmas.StoreLoad

/-!
# Constructors in the store and constructors of trees
-/

set_option linter.unusedSectionVars false
set_option linter.unusedSimpArgs false

namespace Verif

open Spec

variable {F : Type} [PyExt F]

theorem optAll_append {α β : Type} {f : α → Option β} {l m : List α} {l' m' : List β} (h1 : optAll f l = some l')
    (h2 : optAll f m = some m') : optAll f (l ++ m) = some (l' ++ m') := by
  induction l generalizing l' with
  | nil => cases h1; exact h2
  | cons x l ih =>
    simp only [optAll] at h1
    split at h1
    · rename_i y ys hy hys
      cases h1
      simp only [List.cons_append, optAll, hy, ih hys]
    · cases h1

theorem value_view_grow {h h' : Store F} (g : Grow h h') {n : Nat} {x : Ref F} {v : Val Cls F}
    (hv : h.value (h.view n) x = some v) : h'.value (h'.view n) x = some v :=
  value_grow g (fun _ _ hv => view_grow g hv) hv

theorem attrs_view_grow {h h' : Store F} (g : Grow h h') {n : Nat} {l : List (Str × Ref F)} {l' : List (Str × Val Cls F)}
    (hv : optAll (h.attrValue (h.view n)) l = some l') : optAll (h'.attrValue (h'.view n)) l = some l' := by
  refine optAll_mono hv ?_
  rintro ⟨a, x⟩ _ y hy
  simp only [Store.attrValue, Option.map_eq_some_iff] at hy ⊢
  obtain ⟨w, hw, rfl⟩ := hy
  exact ⟨w, value_view_grow g hw, rfl⟩

/-- The two results agree. -/
def Agree {α β : Type} (rel : α → β → Prop) : Except Halt α → Except Err β → Prop
  | .ok a, .ok b => rel a b
  | .error e, .error e' => e = .raised e'
  | _, _ => False

theorem truthy_agree {h : Store F} {n : Nat} {x : Ref F} {v : Val Cls F} (hv : h.value (h.view n) x = some v) :
    Agree (fun a b => a = b) (h.truthy n x) (truthy fastkml v) := by
  simp only [Store.truthy, hv]
  cases truthy fastkml v <;> simp [Agree]

theorem keepTruthy_agree {h : Store F} {n : Nat} {rs : List Nat} {l : List (Val Cls F)} (ho : optAll (h.view n) rs = some l) :
    Agree (fun a b => optAll (h.view n) a = some b) (h.keepTruthy n rs) (keepTruthy fastkml l) := by
  induction rs generalizing l with
  | nil => cases ho; simp [Store.keepTruthy, keepTruthy, Agree, optAll]
  | cons r rs ih =>
    simp only [optAll] at ho
    split at ho
    · rename_i y ys hy hys
      cases ho
      have h1 := truthy_agree (h := h) (n := n) (x := .obj r) hy
      have h2 := ih hys
      simp only [Store.keepTruthy, keepTruthy]
      cases ht : h.truthy n (.obj r) with
      | error e =>
        cases ht' : truthy fastkml y with
        | error e' => rw [ht, ht'] at h1; simpa [Agree] using h1
        | ok b => rw [ht, ht'] at h1; exact h1.elim
      | ok b =>
        cases ht' : truthy fastkml y with
        | error e' => rw [ht, ht'] at h1; exact h1.elim
        | ok b' =>
          rw [ht, ht'] at h1
          cases h1
          cases hk : h.keepTruthy n rs with
          | error e =>
            cases hk' : keepTruthy fastkml ys with
            | error e' => rw [hk, hk'] at h2; simpa [Agree] using h2
            | ok b => rw [hk, hk'] at h2; exact h2.elim
          | ok l1 =>
            cases hk' : keepTruthy fastkml ys with
            | error e' => rw [hk, hk'] at h2; exact h2.elim
            | ok l2 =>
              rw [hk, hk'] at h2
              simp only [Agree] at h2 ⊢
              split
              · simp only [optAll, hy, h2]
              · exact h2
    · cases ho

/-- The stored argument looks like the normalised one. -/
def Stored (h : Store F) (n : Nat) (a : Store F × Ref F) (w : Val Cls F) : Prop :=
  Grow h a.1 ∧ a.1.value (a.1.view n) a.2 = some w

theorem stored_objs {h : Store F} {n : Nat} {t : ElemTy} {rs : List Nat} {l : List (Val Cls F)}
    (ho : optAll (h.view n) rs = some l) : Stored h n (h.newList t (.objs rs)) (.list l) := by
  have g := grow_newList h t (.objs rs)
  refine ⟨g, ?_⟩
  show Store.value _ _ (.list h.lists.length) = _
  have := optAll_mono ho (fun r _ y hy => view_grow g hy)
  simp only [Store.value, newList_get, this, Option.map_some]

theorem stored_coords {h : Store F} {n : Nat} {t : ElemTy} {l : List (Pt F)} : Stored h n (h.newList t (.coords l)) (.coords l) := by
  refine ⟨grow_newList h t (.coords l), ?_⟩
  show Store.value _ _ (.list h.lists.length) = _
  simp only [Store.value, newList_get]

theorem storeArg_agree {h : Store F} {n : Nat} {it : Item Cls} {m : Norm} {t : ElemTy} {x : Ref F} {v : Val Cls F}
    (hm : m = .raw ∨ (normOk it.get m = true ∧ argOk h it x ∧ (m = .orNone → it.get ≠ .xmlSub))) (hv : h.value (h.view n) x = some v) :
    Agree (Stored h n) (h.storeArg n t m x) (normalise fastkml m v) := by
  rcases hm with rfl | ⟨hm, hx, hxs⟩
  · simp only [Store.storeArg, normalise, Agree]
    exact ⟨Grow.refl _, hv⟩
  have hscalar : (m = .clean ∨ m = .orEmpty ∨ m = .orNone) → ∃ u, x = .val u := by
    intro hmm
    have h1 : it.get ≠ .xmlSubList := by
      intro hg; rw [hg] at hm; rcases hmm with rfl | rfl | rfl <;> cases hm
    have h2 : it.get ≠ .coordinates := by
      intro hg; rw [hg] at hm; rcases hmm with rfl | rfl | rfl <;> cases hm
    have hr := argOk_ref hx h1 h2
    cases hg : it.get <;> rw [hg] at hm h1 h2 hxs <;>
      first | exact absurd rfl h1 | exact absurd rfl h2 |
        (simp only [refOk, hg] at hr; obtain ⟨u, hu, _⟩ := hr; exact ⟨u, hu⟩) |
        (rcases hmm with rfl | rfl | rfl <;> first | (cases hm; done) | exact absurd rfl (hxs rfl))
  have hval : ∀ u, x = .val u → h.storeArg n t m x = (match normalise fastkml m u with
      | .error e => .error (.raised e)
      | .ok v => .ok (h, .val v)) → Agree (Stored h n) (h.storeArg n t m x) (normalise fastkml m v) := by
    intro u hu hs
    rw [hs]
    subst hu
    cases hv
    cases hn : normalise fastkml m v with
    | error e => simp only [Agree]
    | ok w => exact ⟨Grow.refl _, rfl⟩
  have hlist : (m = .listOr ∨ m = .listNotNone ∨ m = .listTruthy) →
      x = .val .none ∨ ∃ a t rs, x = .list a ∧ h.lists[a]? = some (t, .objs rs) := by
    intro hmm
    have hg : it.get = .xmlSubList := by
      rcases hmm with rfl | rfl | rfl <;> cases hg : it.get <;> rw [hg] at hm <;> first | rfl | cases hm
    rcases hx with h0 | hx
    · exact Or.inl h0
    · simp only [hg] at hx
      obtain ⟨a, t, rs, h1, h2, _⟩ := hx
      exact Or.inr ⟨a, t, rs, h1, h2⟩
  cases m with
  | raw =>
    simp only [Store.storeArg, normalise, Agree]
    exact ⟨Grow.refl _, hv⟩
  | clean => obtain ⟨u, rfl⟩ := hscalar (by simp); exact hval u rfl (by simp only [Store.storeArg]; rfl)
  | orEmpty => obtain ⟨u, rfl⟩ := hscalar (by simp); exact hval u rfl (by simp only [Store.storeArg]; rfl)
  | orNone => obtain ⟨u, rfl⟩ := hscalar (by simp); exact hval u rfl (by simp only [Store.storeArg]; rfl)
  | listOr =>
    rcases hlist (by simp) with rfl | ⟨a, t', rs, rfl, hl⟩
    · cases hv
      exact stored_objs rfl
    · simp only [Store.value, hl, Option.map_eq_some_iff] at hv
      obtain ⟨l, ho, rfl⟩ := hv
      simp only [Store.storeArg, hl, normalise, Agree]
      exact stored_objs ho
  | listNotNone =>
    rcases hlist (by simp) with rfl | ⟨a, t', rs, rfl, hl⟩
    · cases hv
      exact stored_objs rfl
    · simp only [Store.value, hl, Option.map_eq_some_iff] at hv
      obtain ⟨l, ho, rfl⟩ := hv
      simp only [Store.storeArg, hl, normalise, Agree]
      exact stored_objs ho
  | listTruthy =>
    rcases hlist (by simp) with rfl | ⟨a, t', rs, rfl, hl⟩
    · cases hv
      exact stored_objs rfl
    · simp only [Store.value, hl, Option.map_eq_some_iff] at hv
      obtain ⟨l, ho, rfl⟩ := hv
      simp only [Store.storeArg, hl, normalise]
      have hk := keepTruthy_agree ho
      cases h1 : h.keepTruthy n rs with
      | error e =>
        cases h2 : keepTruthy fastkml l with
        | error e' => rw [h1, h2] at hk; simpa [Agree] using hk
        | ok b => rw [h1, h2] at hk; exact hk.elim
      | ok l1 =>
        cases h2 : keepTruthy fastkml l with
        | error e' => rw [h1, h2] at hk; exact hk.elim
        | ok l2 => rw [h1, h2] at hk; exact stored_objs hk
  | coordsOr =>
    have hg : it.get = .coordinates := by
      cases hg : it.get <;> rw [hg] at hm <;> first | rfl | cases hm
    rcases hx with rfl | hx
    · cases hv
      exact stored_coords
    · simp only [refOk, hg] at hx
      rcases hx with ⟨p, rfl, _⟩ | ⟨a, l, rfl, hl⟩
      · cases hv
        simp only [Store.storeArg, normalise]
        split
        · rename_i he
          rw [List.isEmpty_iff.mp he]
          exact stored_coords
        · exact ⟨Grow.refl _, rfl⟩
      · simp only [Store.value, hl] at hv
        cases l with
        | coords l =>
          cases hv
          simp only [Store.storeArg, normalise, hl]
          split
          · rename_i he
            rw [List.isEmpty_iff.mp he]
            exact stored_coords
          · exact ⟨Grow.refl _, by simp only [Store.value, hl]⟩
        | items l =>
          cases hv
          simp only [Store.storeArg, hl, normalise, Agree]
        | objs rs =>
          simp only [Option.map_eq_some_iff] at hv
          obtain ⟨l, _, rfl⟩ := hv
          simp only [Store.storeArg, hl, normalise, Agree]

/-- The attributes made look like those of the tree. -/
def StoredAll (h : Store F) (n : Nat) (a : Store F × List (Str × Ref F)) (l : List (Str × Val Cls F)) : Prop :=
  Grow h a.1 ∧ optAll (a.1.attrValue (a.1.view n)) a.2 = some l

theorem kwRef_value {h : Store F} {n : Nat} {kw : List (Str × Ref F)} {vs : List (Str × Val Cls F)}
    (ho : optAll (h.attrValue (h.view n)) kw = some vs) (a : Str) : h.value (h.view n) (kwRef a kw) = some (kwGet a vs) := by
  have hf : (kw.filter fun _ => true) = kw := by simp
  have := attr_view (h := h) (f := h.view n) (as := vs) (keep := fun _ => true) (l := kw) (a := a) (by rw [hf]; exact ho) rfl
  exact this

theorem fillSlots_agree {c : Cls} {n : Nat} {kw : List (Str × Ref F)} {vs : List (Str × Val Cls F)} (slots : List (Str × Norm)) :
    ∀ {h : Store F}, (∀ it ∈ fastkml.itemsOf c, argOk h it (kwRef it.attr kw)) → (∀ s ∈ slots, SlotOk c s) →
    optAll (h.attrValue (h.view n)) kw = some vs →
    Agree (StoredAll h n) (h.fillSlots n c kw slots) (fillSlots fastkml vs slots) := by
  induction slots with
  | nil => intro h _ _ _; exact ⟨Grow.refl _, rfl⟩
  | cons s slots ih =>
    intro h harg hsl ho
    obtain ⟨a, m⟩ := s
    have h1 : Agree (Stored h n) (h.storeArg n (listType c a) m (kwRef a kw)) (normalise fastkml m (kwGet a vs)) := by
      rcases hsl (a, m) (by simp) with ⟨it, hit, ha, hm, hxs⟩ | ⟨hm, _, _⟩
      · simp only at ha hm
        subst ha
        exact storeArg_agree (Or.inr ⟨hm, harg it hit, hxs⟩) (kwRef_value ho _)
      · simp only at hm
        subst hm
        simp only [Store.storeArg, normalise, Agree]
        exact ⟨Grow.refl _, kwRef_value ho a⟩
    simp only [Store.fillSlots, fillSlots]
    cases e1 : h.storeArg n (listType c a) m (kwRef a kw) with
    | error e =>
      cases e2 : normalise fastkml m (kwGet a vs) with
      | error e' => rw [e1, e2] at h1; simpa [Agree] using h1
      | ok w => rw [e1, e2] at h1; exact h1.elim
    | ok p =>
      cases e2 : normalise fastkml m (kwGet a vs) with
      | error e' => rw [e1, e2] at h1; exact h1.elim
      | ok w =>
        rw [e1, e2] at h1
        obtain ⟨h', x⟩ := p
        obtain ⟨g1, hx⟩ := h1
        simp only at g1 hx ⊢
        have h2 := ih (h := h') (fun it hit => argOk_grow g1 (harg it hit)) (fun s hs => hsl s (List.mem_cons_of_mem _ hs))
          (attrs_view_grow g1 ho)
        cases e3 : h'.fillSlots n c kw slots with
        | error e =>
          cases e4 : fillSlots fastkml vs slots with
          | error e' => rw [e3, e4] at h2; simpa [Agree] using h2
          | ok w => rw [e3, e4] at h2; exact h2.elim
        | ok q =>
          cases e4 : fillSlots fastkml vs slots with
          | error e' => rw [e3, e4] at h2; exact h2.elim
          | ok ws =>
            rw [e3, e4] at h2
            obtain ⟨h'', xs⟩ := q
            obtain ⟨g2, hxs⟩ := h2
            simp only at g2 hxs ⊢
            refine ⟨g1.trans g2, ?_⟩
            simp only [optAll, Store.attrValue, value_view_grow g2 hx, Option.map_some]
            rw [show optAll _ xs = some ws from hxs]

/-- Not what the constructor of a track takes. -/
def Odd (v : Val Cls F) : Prop := (∃ c ns nss as, v = .obj c ns nss as) ∨ ∃ l, v = .list l

theorem value_odd {h : Store F} {n : Nat} {x : Ref F} {v : Val Cls F} (hv : h.value (h.view n) x = some v) :
    h.value (fun _ => none) x = some v ∨ Odd v := by
  cases x with
  | val u => exact Or.inl hv
  | obj r =>
    right
    cases n with
    | zero => cases hv
    | succ n => obtain ⟨b, as, _, _, rfl⟩ := view_obj hv; exact Or.inl ⟨_, _, _, _, rfl⟩
  | list a =>
    simp only [Store.value] at hv ⊢
    split at hv
    · cases hv
    · exact Or.inl hv
    · exact Or.inl hv
    · simp only [Option.map_eq_some_iff] at hv
      obtain ⟨l, _, rfl⟩ := hv
      exact Or.inr (Or.inr ⟨l, rfl⟩)

theorem trackItems_odd {kw : List (Str × Val Cls F)} {a : Str} (ha : a ∈ specialArgs .track) (ho : Odd (kwGet a kw)) :
    trackItems kw = .error .illTyped := by
  simp only [specialArgs, List.mem_cons, List.not_mem_nil, or_false] at ha
  rcases ha with rfl | rfl | rfl | rfl <;> rcases ho with ⟨_, _, _, _, he⟩ | ⟨_, he⟩ <;> simp only [trackItems, he]
  all_goals
    split
    · rename_i h1 h2 h3 h4
      first | (cases h1; done) | (cases h2; done) | (cases h3; done) | (cases h4; done)
    · rfl

theorem trackItems_congr {kw kw' : List (Str × Val Cls F)} (h : ∀ a ∈ specialArgs .track, kwGet a kw = kwGet a kw') :
    trackItems kw = trackItems kw' := by
  have h1 := h (s% "track_items") (by simp [specialArgs])
  have h2 := h (s% "whens") (by simp [specialArgs])
  have h3 := h (s% "coords") (by simp [specialArgs])
  have h4 := h (s% "angles") (by simp [specialArgs])
  simp only [trackItems, h1, h2, h3, h4]

theorem trackArgs_arg {h : Store F} {kw : List (Str × Ref F)} {as : List (Str × Val Cls F)} (ha : h.trackArgs kw = some as)
    {a : Str} (hm : a ∈ specialArgs .track) : h.value (fun _ => none) (kwRef a kw) = some (kwGet a as) := by
  unfold Store.trackArgs at ha
  revert as
  generalize specialArgs .track = l at hm
  induction l with
  | nil => cases hm
  | cons k l ih =>
    intro as ha
    simp only [optAll] at ha
    split at ha
    · rename_i y ys hy hys
      cases ha
      simp only [Option.map_eq_some_iff] at hy
      obtain ⟨w, hw, rfl⟩ := hy
      by_cases he : k = a
      · subst he; simpa [kwGet, dget] using hw
      · have := ih ((List.mem_cons.mp hm).resolve_left fun h => he h.symm) hys
        simpa [kwGet, dget, he] using this
    · cases ha

theorem trackArgs_agree {h : Store F} {n : Nat} {kw : List (Str × Ref F)} {vs : List (Str × Val Cls F)}
    (ho : optAll (h.attrValue (h.view n)) kw = some vs) :
    (∃ as, h.trackArgs kw = some as ∧ trackItems as = trackItems vs) ∨
    (h.trackArgs kw = none ∧ trackItems vs = .error .illTyped) := by
  cases ht : h.trackArgs kw with
  | some as =>
    left
    refine ⟨as, rfl, trackItems_congr fun a ha => ?_⟩
    have h1 := value_mono (g := h.view n) (by intro r v hv; cases hv) (trackArgs_arg ht ha)
    rw [kwRef_value ho a] at h1
    exact (Option.some.inj h1).symm
  | none =>
    right
    refine ⟨rfl, ?_⟩
    by_cases hodd : ∃ a ∈ specialArgs .track, Odd (kwGet a vs)
    · obtain ⟨a, ha, hod⟩ := hodd
      exact trackItems_odd ha hod
    · exfalso
      obtain ⟨as, has⟩ := optAll_some (f := fun a => (h.value (fun _ => none) (kwRef a kw)).map fun v => (a, v))
        (l := specialArgs .track) (by
          intro a ha
          rcases value_odd (kwRef_value ho a) with hv | hod
          · exact ⟨_, by rw [hv]; rfl⟩
          · exact absurd ⟨a, ha, hod⟩ hodd)
      unfold Store.trackArgs at ht
      rw [has] at ht
      cases ht

theorem specialInit_agree {h : Store F} {n : Nat} {s : Special} {kw : List (Str × Ref F)} {vs : List (Str × Val Cls F)}
    (ho : optAll (h.attrValue (h.view n)) kw = some vs) :
    Agree (StoredAll h n) (h.specialInit n s kw) (specialInit fastkml s vs) := by
  cases s with
  | none => exact ⟨Grow.refl _, rfl⟩
  | kml => exact ⟨Grow.refl _, rfl⟩
  | placemark =>
    have h1 := truthy_agree (kwRef_value ho (s% "kml_geometry"))
    simp only [Store.specialInit, specialInit]
    cases e1 : h.truthy n (kwRef (s% "kml_geometry") kw) <;>
      cases e2 : truthy fastkml (kwGet (s% "kml_geometry") vs) <;> rw [e1, e2] at h1
    · simpa [Agree] using h1
    · exact h1.elim
    · exact h1.elim
    · exact ⟨Grow.refl _, rfl⟩
  | schema =>
    have h1 := kwRef_value ho (s% "id")
    simp only [Store.specialInit, specialInit]
    cases hx : kwRef (s% "id") kw with
    | val u =>
      rw [hx] at h1
      cases h1
      cases kwGet (s% "id") vs with
      | str t =>
        simp only
        split
        · simp [Agree]
        · exact ⟨Grow.refl _, rfl⟩
      | _ => simp [Agree]
    | obj r =>
      rw [hx] at h1
      cases n with
      | zero => cases h1
      | succ n =>
        obtain ⟨b, as, _, _, he⟩ := view_obj h1
        rw [he]
        simp [Agree]
    | list a =>
      rw [hx] at h1
      simp only [Store.value] at h1
      split at h1
      · cases h1
      · rw [← Option.some.inj h1]; simp [Agree]
      · rw [← Option.some.inj h1]; simp [Agree]
      · simp only [Option.map_eq_some_iff] at h1
        obtain ⟨l, _, he⟩ := h1
        rw [← he]
        simp [Agree]
  | track =>
    simp only [Store.specialInit, specialInit]
    rcases trackArgs_agree ho with ⟨as, h1, h2⟩ | ⟨h1, h2⟩
    · rw [h1, ← h2]
      simp only
      cases trackItems as with
      | error e => simp [Agree]
      | ok l =>
        refine ⟨grow_newList _ _ _, ?_⟩
        simp only [optAll, Store.attrValue, Store.newList, Store.value]
        simp
    · rw [h1, h2]
      simp [Agree]

/-! ## What a constructor adds -/

theorem storeArg_objs {h h' : Store F} {n : Nat} {t : ElemTy} {m : Norm} {x y : Ref F} (hs : h.storeArg n t m x = .ok (h', y)) :
    h'.objs = h.objs ∧ h.lists.length ≤ h'.lists.length ∧
      (∀ l, y = .list l → h.lists.length ≤ l ∨ (x = .list l ∧ (m = .raw ∨ m = .coordsOr))) := by
  have hnew : ∀ c, .ok (h.newList t c) = (.ok (h', y) : Except Halt _) → h'.objs = h.objs ∧ h.lists.length ≤ h'.lists.length ∧
      (∀ l, y = .list l → h.lists.length ≤ l ∨ (x = .list l ∧ (m = .raw ∨ m = .coordsOr))) := by
    intro c he
    cases he
    refine ⟨rfl, by simp [Store.newList], fun l hl => Or.inl ?_⟩
    cases hl
    exact Nat.le_refl _
  have hsame : ∀ m', m = m' → (m' = .raw ∨ m' = .coordsOr) → .ok (h, x) = (.ok (h', y) : Except Halt _) →
      h'.objs = h.objs ∧ h.lists.length ≤ h'.lists.length ∧
      (∀ l, y = .list l → h.lists.length ≤ l ∨ (x = .list l ∧ (m = .raw ∨ m = .coordsOr))) := by
    rintro m' rfl hm he
    cases he
    exact ⟨rfl, Nat.le_refl _, fun l hl => Or.inr ⟨hl, hm⟩⟩
  have hval : ∀ v, .ok (h, .val v) = (.ok (h', y) : Except Halt (Store F × Ref F)) →
      h'.objs = h.objs ∧ h.lists.length ≤ h'.lists.length ∧
      (∀ l, y = .list l → h.lists.length ≤ l ∨ (x = .list l ∧ (m = .raw ∨ m = .coordsOr))) := by
    intro v he
    cases he
    exact ⟨rfl, Nat.le_refl _, fun l hl => by cases hl⟩
  unfold Store.storeArg at hs
  split at hs
  · exact hsame _ rfl (Or.inl rfl) hs
  · split at hs
    · cases hs
    · exact hval _ hs
  · split at hs
    · cases hs
    · exact hval _ hs
  · split at hs
    · cases hs
    · exact hval _ hs
  · exact hnew _ hs
  · exact hnew _ hs
  · exact hnew _ hs
  · split at hs
    · exact hnew _ hs
    · cases hs
  · split at hs
    · exact hnew _ hs
    · cases hs
  · split at hs
    · split at hs
      · cases hs
      · exact hnew _ hs
    · cases hs
  · exact hnew _ hs
  · split at hs
    · exact hnew _ hs
    · exact hval _ hs
  · split at hs
    · split at hs
      · exact hnew _ hs
      · exact hsame _ rfl (Or.inr rfl) hs
    · cases hs
  · cases hs

theorem fillSlots_objs {c : Cls} {n : Nat} {kw : List (Str × Ref F)} (slots : List (Str × Norm)) :
    ∀ {h h' : Store F} {xs : List (Str × Ref F)}, h.fillSlots n c kw slots = .ok (h', xs) →
    h'.objs = h.objs ∧ h.lists.length ≤ h'.lists.length ∧
      ∀ a l, (a, .list l) ∈ xs → h.lists.length ≤ l ∨
        (kwRef a kw = .list l ∧ ((a, .raw) ∈ slots ∨ (a, .coordsOr) ∈ slots)) := by
  induction slots with
  | nil => intro h h' xs hf; cases hf; exact ⟨rfl, Nat.le_refl _, by simp⟩
  | cons s slots ih =>
    intro h h' xs hf
    obtain ⟨a, m⟩ := s
    simp only [Store.fillSlots] at hf
    split at hf
    · cases hf
    · rename_i h1 x hs
      split at hf
      · cases hf
      · rename_i h2 ys hf'
        cases hf
        obtain ⟨o1, l1, f1⟩ := storeArg_objs hs
        obtain ⟨o2, l2, f2⟩ := ih hf'
        refine ⟨o2.trans o1, Nat.le_trans l1 l2, ?_⟩
        intro a' l hm
        rcases List.mem_cons.mp hm with he | hm
        · cases he
          rcases f1 l rfl with h1 | ⟨h1, h2⟩
          · exact Or.inl h1
          · right
            refine ⟨h1, ?_⟩
            rcases h2 with rfl | rfl <;> simp
        · rcases f2 a' l hm with h1 | ⟨h1, h2⟩
          · exact Or.inl (Nat.le_trans l1 h1)
          · right
            refine ⟨h1, ?_⟩
            rcases h2 with h2 | h2 <;> simp [h2]

theorem specialInit_objs {h h' : Store F} {n : Nat} {s : Special} {kw sp : List (Str × Ref F)}
    (hs : h.specialInit n s kw = .ok (h', sp)) :
    h'.objs = h.objs ∧ h.lists.length ≤ h'.lists.length ∧ ∀ a l, (a, .list l) ∈ sp → h.lists.length ≤ l := by
  cases s with
  | none => cases hs; simp
  | kml => cases hs; simp
  | placemark =>
    simp only [Store.specialInit] at hs
    split at hs
    · cases hs
    · cases hs; simp
  | schema =>
    simp only [Store.specialInit] at hs
    split at hs
    · cases hs
    · split at hs
      · cases hs
      · cases hs; simp
    · cases hs
  | track =>
    simp only [Store.specialInit] at hs
    split at hs
    · cases hs
    · split at hs
      · cases hs
      · cases hs
        refine ⟨rfl, by simp [Store.newList], ?_⟩
        intro a l hm
        simp only [List.mem_singleton, Prod.mk.injEq] at hm
        obtain ⟨_, hm⟩ := hm
        cases hm
        exact Nat.le_refl _

/-- The object that a constructor makes. -/
theorem make_cell {h h' : Store F} {n : Nat} {c : Cls} {ns : Option Str} {nss : NsMap} {kw : List (Str × Ref F)}
    (hs : h.make n c ns nss kw = .ok h') :
    ∃ b, h'.objs = h.objs ++ [b] ∧ b.cls = c ∧ h.lists.length ≤ h'.lists.length ∧
      ∀ a l, (a, .list l) ∈ b.attrs → visible c a = true → h.lists.length ≤ l ∨
        (kwRef a kw = .list l ∧ ((a, .raw) ∈ (fastkml.info c).slots ∨ (a, .coordsOr) ∈ (fastkml.info c).slots)) := by
  have hR := fastkml_readOk c
  simp only [Store.make] at hs
  split at hs
  · cases hs
  · split at hs
    · cases hs
    · rename_i h1 sp hsp
      split at hs
      · cases hs
      · rename_i h2 sl hsl
        cases hs
        obtain ⟨o1, l1, f1⟩ := specialInit_objs hsp
        obtain ⟨o2, l2, f2⟩ := fillSlots_objs _ hsl
        refine ⟨_, congrArg (· ++ [_]) (o2.trans o1), rfl, Nat.le_trans l1 l2, ?_⟩
        intro a l hm hvis
        simp only at hm
        rcases List.mem_append.mp hm with hm | hm
        · rcases List.mem_append.mp hm with hm | hm
          · exfalso
            have := (List.mem_filter.mp hm).2
            simp only [decide_eq_true_eq] at this
            refine this ?_
            rcases visible_iff.mp hvis with ⟨it, hit, ha, _⟩ | ⟨hst, ha⟩
            · rw [← ha]; exact hR.attr_known hit
            · rw [ha, hst]; simp [specialArgs]
          · exact Or.inl (f1 a l hm)
        · rcases f2 a l hm with h3 | ⟨h3, h4⟩
          · exact Or.inl (Nat.le_trans l1 h3)
          · exact Or.inr ⟨h3, h4⟩

/-- The constructor in the store and the constructor of trees. -/
theorem make_agree {h : Store F} {n : Nat} {c : Cls} {ns : Option Str} {nss : NsMap} {kw : List (Str × Ref F)}
    {vs : List (Str × Val Cls F)} (harg : ∀ it ∈ fastkml.itemsOf c, argOk h it (kwRef it.attr kw))
    (ho : optAll (h.attrValue (h.view n)) kw = some vs) :
    Agree (fun h' v => Grow h h' ∧ ∃ as,
        v = .obj c (ns.getD (nsGet (mergeNs nss) (fastkml.info c).nsid)) (mergeNs nss) as ∧
        h'.view (n + 1) h.objs.length = some (.obj c (ns.getD (nsGet (mergeNs nss) (fastkml.info c).nsid)) (mergeNs nss)
          (as.filter fun p => visible c p.1)))
      (h.make n c ns nss kw) (init fastkml c ns nss vs) := by
  have hex := optAll_filter ho fun a => decide (a ∉ specialArgs (fastkml.info c).special ++ (fastkml.info c).slots.map Prod.fst)
  simp only [Store.make, init, construct]
  have hemp : ((kw.filter fun p => decide (p.1 ∉ specialArgs (fastkml.info c).special ++
      (fastkml.info c).slots.map Prod.fst)).isEmpty = false ∧ (fastkml.info c).kwargs = false) ↔
      (vs.filter fun p => decide (p.1 ∉ specialArgs (fastkml.info c).special ++
      (fastkml.info c).slots.map Prod.fst)) ≠ [] ∧ (fastkml.info c).kwargs = false := by
    refine and_congr_left fun _ => ?_
    revert hex
    generalize (kw.filter fun p => decide (p.1 ∉ specialArgs (fastkml.info c).special ++
      (fastkml.info c).slots.map Prod.fst)) = k
    generalize (vs.filter fun p => decide (p.1 ∉ specialArgs (fastkml.info c).special ++
      (fastkml.info c).slots.map Prod.fst)) = w
    intro hex
    cases k with
    | nil => cases hex; simp
    | cons x k =>
      simp only [optAll] at hex
      split at hex
      · cases hex; simp
      · cases hex
  by_cases hc : (kw.filter fun p => decide (p.1 ∉ specialArgs (fastkml.info c).special ++
      (fastkml.info c).slots.map Prod.fst)).isEmpty = false ∧ (fastkml.info c).kwargs = false
  · rw [if_pos hc, if_pos (hemp.mp hc)]
    simp [Agree]
  · rw [if_neg hc, if_neg (fun h => hc (hemp.mpr h))]
    have h1 := specialInit_agree (s := (fastkml.info c).special) ho
    cases e1 : h.specialInit n (fastkml.info c).special kw with
    | error e =>
      cases e2 : specialInit fastkml (fastkml.info c).special vs with
      | error e' => rw [e1, e2] at h1; simpa [Agree] using h1
      | ok w => rw [e1, e2] at h1; exact h1.elim
    | ok p =>
      cases e2 : specialInit fastkml (fastkml.info c).special vs with
      | error e' => rw [e1, e2] at h1; exact h1.elim
      | ok spv =>
        rw [e1, e2] at h1
        obtain ⟨h', sp⟩ := p
        obtain ⟨g1, hx⟩ := h1
        simp only at g1 hx ⊢
        have h2 := fillSlots_agree (c := c) (h := h') (fastkml.info c).slots (fun it hit => argOk_grow g1 (harg it hit))
          (slot_registered c) (attrs_view_grow g1 ho)
        cases e3 : h'.fillSlots n c kw (fastkml.info c).slots with
        | error e =>
          cases e4 : fillSlots fastkml vs (fastkml.info c).slots with
          | error e' => rw [e3, e4] at h2; simpa [Agree] using h2
          | ok w => rw [e3, e4] at h2; exact h2.elim
        | ok q =>
          cases e4 : fillSlots fastkml vs (fastkml.info c).slots with
          | error e' => rw [e3, e4] at h2; exact h2.elim
          | ok slv =>
            rw [e3, e4] at h2
            obtain ⟨h'', sl⟩ := q
            obtain ⟨g2, hsl⟩ := h2
            simp only at g2 hsl ⊢
            have g3 := grow_newObj h'' ⟨c, ns.getD (nsGet (mergeNs nss) (fastkml.info c).nsid), mergeNs nss,
              (kw.filter fun p => decide (p.1 ∉ specialArgs (fastkml.info c).special ++
                (fastkml.info c).slots.map Prod.fst)) ++ sp ++ sl⟩
            refine ⟨(g1.trans g2).trans g3, _, rfl, ?_⟩
            have hlen : h''.objs.length = h.objs.length := by
              rw [(fillSlots_objs _ e3).1, (specialInit_objs e1).1]
            have hall := optAll_append (optAll_append (attrs_view_grow (g1.trans g2) hex) (attrs_view_grow g2 hx)) hsl
            have hfin := optAll_filter (attrs_view_grow g3 hall) (visible c)
            rw [← hlen]
            simp only [Store.view, newObj_get]
            rw [hfin]
            rfl

/-! ## Attributes that are not read -/

theorem attrOf_visible {c : Cls} {a : Str} (ha : visible c a = true) (as : List (Str × Val Cls F)) :
    attrOf a (as.filter fun p => visible c p.1) = attrOf a as := by
  unfold attrOf
  induction as with
  | nil => rfl
  | cons p l ih =>
    obtain ⟨k, v⟩ := p
    rw [List.filter_cons]
    split
    · simp only [dget]
      split
      · rfl
      · exact ih
    · rename_i hk
      have : k ≠ a := by rintro rfl; exact hk ha
      rw [ih]
      simp only [dget, if_neg this]

/-- Computed lists are those of tracks. -/
theorem computed_track (c : Cls) : ∀ it ∈ fastkml.itemsOf c, it.get = .subDtList ∨ it.get = .coordsList →
    (fastkml.info c).special = .track ∧ (it.attr = s% "whens" ∨ it.attr = s% "coords" ∨ it.attr = s% "angles") := by
  have key : ∀ c ∈ Cls.all, ((fastkml.itemsOf c).all fun it => decide (it.get = .subDtList ∨ it.get = .coordsList →
    (fastkml.info c).special = .track ∧ (it.attr = s% "whens" ∨ it.attr = s% "coords" ∨ it.attr = s% "angles"))) = true := by
    decide +kernel
  intro it hit
  exact of_decide_eq_true (List.all_eq_true.mp (key c (Cls.mem_all c)) it hit)

theorem kml_features : ∀ c : Cls, (fastkml.info c).special = .kml → visible c (s% "features") = true := by
  have key : ∀ c ∈ Cls.all, (fastkml.info c).special = .kml → visible c (s% "features") = true := by decide +kernel
  exact fun c => key c (Cls.mem_all c)

/-- Attributes that are not read do not matter for writing. -/
theorem ser_visible (o : Opts) (c : Cls) (ns : Str) (nss : NsMap) (as : List (Str × Val Cls F)) :
    ser fastkml o (.obj c ns nss (as.filter fun p => visible c p.1)) = ser fastkml o (.obj c ns nss as) := by
  have hg : ∀ a, visible c a = true ∨ ((fastkml.info c).special = .track ∧
      (a = s% "whens" ∨ a = s% "coords" ∨ a = s% "angles")) →
      getattr (fastkml.info c).special (serAttrs fastkml o (as.filter fun p => visible c p.1)) a =
        getattr (fastkml.info c).special (serAttrs fastkml o as) a := by
    intro a ha
    rw [getattr_serAttrs, getattr_serAttrs]
    have hp : propOf (fastkml.info c).special (as.filter fun p => visible c p.1) a = propOf (fastkml.info c).special as a := by
      unfold propOf
      by_cases ht : (fastkml.info c).special = .track
      · have hi : itemsOf' (as.filter fun p => visible c p.1) = itemsOf' as := by
          simp only [itemsOf', attrOf_visible (visible_iff.mpr (Or.inr ⟨ht, rfl⟩))]
        rw [hi]
        rcases ha with ha | ⟨_, ha⟩
        · rw [attrOf_visible ha]
        · rcases ha with rfl | rfl | rfl <;> simp [ht]
      · rcases ha with ha | ⟨h, _⟩
        · simp only [ht, false_and, if_false, attrOf_visible ha]
        · exact absurd h ht
    rw [hp]
  have hall : ∀ items el, (∀ it ∈ items, it ∈ fastkml.itemsOf c) →
      setAll ns nss o (fastkml.info c).special (serAttrs fastkml o (as.filter fun p => visible c p.1)) items el =
      setAll ns nss o (fastkml.info c).special (serAttrs fastkml o as) items el := by
    intro items
    induction items with
    | nil => intro el _; rfl
    | cons it items ih =>
      intro el hm
      have h1 : visible c it.attr = true ∨ ((fastkml.info c).special = .track ∧
          (it.attr = s% "whens" ∨ it.attr = s% "coords" ∨ it.attr = s% "angles")) := by
        have hit := hm it (by simp)
        by_cases h1 : it.get = .subDtList
        · exact Or.inr (computed_track c it hit (Or.inl h1))
        by_cases h2 : it.get = .coordsList
        · exact Or.inr (computed_track c it hit (Or.inr h2))
        exact Or.inl (visible_iff.mpr (Or.inl ⟨it, hit, rfl, h1, h2⟩))
      simp only [setAll, hg it.attr h1, fun el => ih el fun it hit => hm it (List.mem_cons_of_mem _ hit)]
  simp only [ser_obj, serStep]
  by_cases hk : (fastkml.info c).special = .kml
  · simp only [if_pos hk, hg _ (Or.inl (kml_features c hk))]
  · simp only [if_neg hk, hall _ _ fun _ h => h]

end Verif
