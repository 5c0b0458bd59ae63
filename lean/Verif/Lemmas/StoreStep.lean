import Verif.Lemmas.Store

/-!
# Typed programs lead to typed stores
-/

set_option linter.unusedSectionVars false
set_option linter.unusedSimpArgs false

namespace Verif

open Spec

variable {F : Type} [PyExt F]

/-- Objects keep their class, lists their annotation. -/
structure Ext (h h' : Store F) : Prop where
  objs : ∀ (r : Nat) b, h.objs[r]? = some b → ∃ b', h'.objs[r]? = some b' ∧ b'.cls = b.cls
  lists : ∀ (a : Nat) t l, h.lists[a]? = some (t, l) → ∃ l', h'.lists[a]? = some (t, l')

/-- Objects and lists are added, nothing is changed. -/
structure Grow (h h' : Store F) : Prop where
  objs : ∀ (r : Nat) b, h.objs[r]? = some b → h'.objs[r]? = some b
  lists : ∀ (a : Nat) l, h.lists[a]? = some l → h'.lists[a]? = some l

theorem Grow.ext {h h' : Store F} (g : Grow h h') : Ext h h' :=
  ⟨fun r b hb => ⟨b, g.objs r b hb, rfl⟩, fun a t l hl => ⟨l, g.lists a _ hl⟩⟩

theorem Grow.refl (h : Store F) : Grow h h := ⟨fun _ _ h => h, fun _ _ h => h⟩

theorem Grow.trans {h h' h'' : Store F} (g : Grow h h') (g' : Grow h' h'') : Grow h h'' :=
  ⟨fun r b hb => g'.objs r b (g.objs r b hb), fun a l hl => g'.lists a l (g.lists a l hl)⟩

theorem isA_ext {h h' : Store F} (g : Ext h h') {r : Nat} {cs : List (PyType Cls)} (hr : IsA h r cs) : IsA h' r cs := by
  obtain ⟨b, hb, hc⟩ := hr
  obtain ⟨b', hb', he⟩ := g.objs r b hb
  exact ⟨b', hb', he ▸ hc⟩

theorem refOk_ext {h h' : Store F} (g : Ext h h') {it : Item Cls} {x : Ref F} (hx : refOk h it x) : refOk h' it x := by
  unfold refOk at hx ⊢
  cases hg : it.get <;> rw [hg] at hx <;> simp only at hx ⊢
  case xmlSub =>
    rcases hx with h | ⟨r, h, hr⟩
    · exact Or.inl h
    · exact Or.inr ⟨r, h, isA_ext g hr⟩
  case xmlSubList =>
    obtain ⟨a, l, h, hl⟩ := hx
    obtain ⟨l', hl'⟩ := g.lists a _ l hl
    exact ⟨a, l', h, hl'⟩
  case coordinates =>
    rcases hx with h | ⟨a, l, h, hl⟩
    · exact Or.inl h
    · obtain ⟨l', hl'⟩ := g.lists a _ l hl
      exact Or.inr ⟨a, l', h, hl'⟩
  all_goals exact hx

theorem listOk_ext {h h' : Store F} (g : Ext h h') {t : ElemTy} {l : Cells F} (hl : listOk h t l) : listOk h' t l := by
  cases t <;> cases l <;> simp only [listOk] at hl ⊢
  · exact fun r hr => isA_ext g (hl r hr)
  · exact hl
  · exact hl

theorem itemsOk_ext {h h' : Store F} (g : Ext h h') {x : Ref F} (hx : itemsOk h x) : itemsOk h' x := by
  obtain ⟨a, l, h, hl⟩ := hx
  obtain ⟨l', hl'⟩ := g.lists a _ l hl
  exact ⟨a, l', h, hl'⟩

theorem itemsOk_live {h : Store F} {x : Ref F} (hx : itemsOk h x) : Live h x := by
  obtain ⟨a, l, rfl, hl⟩ := hx
  exact (List.getElem?_eq_some_iff.mp hl).1

theorem live_ext {h h' : Store F} (g : Ext h h') {x : Ref F} (hx : Live h x) : Live h' x := by
  cases x with
  | val v => exact hx
  | obj r =>
    obtain ⟨b', hb', _⟩ := g.objs r _ (List.getElem?_eq_getElem hx)
    exact (List.getElem?_eq_some_iff.mp hb').1
  | list a =>
    obtain ⟨l', hl'⟩ := g.lists a _ _ (List.getElem?_eq_getElem hx)
    exact (List.getElem?_eq_some_iff.mp hl').1

theorem cellOk_ext {h h' : Store F} (g : Ext h h') {b : Cell F} (hb : CellOk h b) : CellOk h' b :=
  ⟨fun it hit => refOk_ext g (hb.items it hit), fun ht => itemsOk_ext g (hb.track ht),
    fun p hp hv => live_ext g (hb.live p hp hv)⟩

theorem argOk_grow {h h' : Store F} (g : Grow h h') {it : Item Cls} {x : Ref F} (hx : argOk h it x) : argOk h' it x := by
  rcases hx with h0 | hx
  · exact Or.inl h0
  right
  by_cases hg : it.get = .xmlSubList
  · simp only [hg] at hx ⊢
    obtain ⟨a, t, rs, h, hl, hr⟩ := hx
    exact ⟨a, t, rs, h, g.lists a _ hl, fun r hm => isA_ext g.ext (hr r hm)⟩
  · have h1 : refOk h it x := by
      cases he : it.get <;> rw [he] at hx hg <;> first | exact absurd rfl hg | exact hx
    have := refOk_ext g.ext h1
    cases he : it.get <;> rw [he] at hg <;> first | exact absurd rfl hg | exact this

/-! ## New lists and objects -/

theorem grow_newList (h : Store F) (t : ElemTy) (l : Cells F) : Grow h (h.newList t l).1 :=
  ⟨fun _ _ hb => hb, fun a c hc => by
    simp only [Store.newList]
    rw [List.getElem?_append_left (List.getElem?_eq_some_iff.mp hc).1]
    exact hc⟩

theorem newList_get (h : Store F) (t : ElemTy) (l : Cells F) :
    (h.newList t l).1.lists[h.lists.length]? = some (t, l) := by
  simp [Store.newList]

theorem newList_wt {h : Store F} (hw : WT h) {t : ElemTy} {l : Cells F} (hl : listOk h t l) : WT (h.newList t l).1 := by
  have g := (grow_newList h t l).ext
  refine ⟨fun r b hb => cellOk_ext g (hw.objs r b hb), ?_⟩
  intro a t' l' ha
  refine listOk_ext g ?_
  simp only [Store.newList] at ha
  by_cases hlt : a < h.lists.length
  · rw [List.getElem?_append_left hlt] at ha
    exact hw.lists a t' l' ha
  · rw [List.getElem?_append_right (by omega), List.getElem?_singleton] at ha
    split at ha
    · cases ha; exact hl
    · cases ha

theorem grow_newObj (h : Store F) (b : Cell F) : Grow h (h.newObj b) :=
  ⟨fun r c hc => by
    simp only [Store.newObj]
    rw [List.getElem?_append_left (List.getElem?_eq_some_iff.mp hc).1]
    exact hc, fun _ _ hb => hb⟩

theorem newObj_get (h : Store F) (b : Cell F) : (h.newObj b).objs[h.objs.length]? = some b := by
  simp [Store.newObj]

theorem newObj_wt {h : Store F} (hw : WT h) {b : Cell F} (hb : CellOk h b) : WT (h.newObj b) := by
  have g := (grow_newObj h b).ext
  refine ⟨?_, fun a t l hl => listOk_ext g (hw.lists a t l hl)⟩
  intro r b' hr
  refine cellOk_ext g ?_
  simp only [Store.newObj] at hr
  by_cases hlt : r < h.objs.length
  · rw [List.getElem?_append_left hlt] at hr
    exact hw.objs r b' hr
  · rw [List.getElem?_append_right (by omega), List.getElem?_singleton] at hr
    split at hr
    · cases hr; exact hb
    · cases hr

/-! ## Constructors -/

theorem listType_eq {c : Cls} {it : Item Cls} (hit : it ∈ fastkml.itemsOf c) :
    listType c it.attr = match it.get with
      | .coordinates => .coords
      | _ => .objs it.classes := by
  have hn := (fastkml_readOk c).attrs
  unfold listType
  cases hf : (fastkml.itemsOf c).find? fun it' => decide (it'.attr = it.attr) with
  | none =>
    have := List.find?_eq_none.mp hf it hit
    simp at this
  | some it' =>
    have h1 := List.find?_some hf
    have h2 := List.mem_of_find?_eq_some hf
    have : it' = it := injOn_of_nodup_map hn h2 hit (by simpa using h1)
    rw [this]
    rfl

theorem argOk_ref {h : Store F} {it : Item Cls} {x : Ref F} (hx : argOk h it x) (h1 : it.get ≠ .xmlSubList)
    (h2 : it.get ≠ .coordinates) : refOk h it x := by
  rcases hx with rfl | hx
  · cases hg : it.get <;> rw [hg] at h1 h2 <;> simp only [refOk, hg] <;>
      first | exact absurd rfl h1 | exact absurd rfl h2 | exact Or.inl trivial | trivial |
        exact ⟨_, rfl, by simp only [kindOk, hg]⟩
  · cases he : it.get <;> rw [he] at hx h1 <;> first | exact absurd rfl h1 | exact hx

theorem storedScalar {it : Item Cls} {m : Norm} {v w : Val Cls F} (hm : normOk it.get m = true)
    (hk : kindOk dim23 it v = true) (hv : m = .clean ∨ m = .orEmpty ∨ m = .orNone)
    (h : normalise fastkml m v = .ok w) : kindOk dim23 it w = true := by
  rcases hv with rfl | rfl | rfl
  · cases hg : it.get <;> rw [hg] at hm <;> try (cases hm; done)
    all_goals
      simp only [kindOk, hg] at hk ⊢
      cases v <;> first | (cases hk; done) | skip
      · cases h; rfl
      · simp only [normalise] at h
        cases h
        rename_i s
        cases hc : cleanString (some s) <;> rfl
  · cases hg : it.get <;> rw [hg] at hm <;> try (cases hm; done)
    all_goals
      simp only [kindOk, hg] at hk ⊢
      cases v <;> first | (cases hk; done) | skip
      · cases h; rfl
      · cases h; rfl
  · simp only [normalise] at h
    split at h
    · cases h
    · cases h
      split
      · exact hk
      · cases hg : it.get <;> rw [hg] at hm <;> first | (cases hm; done) | simp only [kindOk, hg]

theorem keepTruthy_sub {h : Store F} {n : Nat} {rs l : List Nat} (hk : h.keepTruthy n rs = .ok l) : ∀ r ∈ l, r ∈ rs := by
  induction rs generalizing l with
  | nil => cases hk; simp
  | cons r rs ih =>
    simp only [Store.keepTruthy] at hk
    split at hk
    · cases hk
    · split at hk
      · cases hk
      · rename_i b _ l' hl'
        cases hk
        intro x hx
        split at hx
        · rcases List.mem_cons.mp hx with rfl | hx
          · simp
          · exact List.mem_cons_of_mem _ (ih hl' x hx)
        · exact List.mem_cons_of_mem _ (ih hl' x hx)

theorem storeArg_wt {h h' : Store F} {n : Nat} {c : Cls} {it : Item Cls} {m : Norm} {x y : Ref F} (hw : WT h)
    (hit : it ∈ fastkml.itemsOf c) (hm : normOk it.get m = true) (hx : argOk h it x)
    (hs : h.storeArg n (listType c it.attr) m x = .ok (h', y)) : WT h' ∧ Grow h h' ∧ refOk h' it y := by
  rw [listType_eq hit] at hs
  have hnew : ∀ rs, it.get = .xmlSubList → (∀ r ∈ rs, IsA h r it.classes) →
      .ok (h.newList (.objs it.classes) (.objs rs)) = (.ok (h', y) : Except Halt _) → WT h' ∧ Grow h h' ∧ refOk h' it y := by
    intro rs hg hr he
    cases he
    refine ⟨newList_wt hw hr, grow_newList _ _ _, ?_⟩
    simp only [refOk, hg]
    exact ⟨_, _, rfl, newList_get h _ _⟩
  have hempty : it.get = .coordinates → .ok (h.newList .coords (.coords [])) = (.ok (h', y) : Except Halt _) →
      WT h' ∧ Grow h h' ∧ refOk h' it y := by
    intro hg he
    cases he
    refine ⟨newList_wt hw (by simp [listOk]), grow_newList _ _ _, ?_⟩
    simp only [refOk, hg]
    exact Or.inr ⟨_, _, rfl, newList_get h _ _⟩
  have hval : ∀ v, x = .val v → (m = .clean ∨ m = .orEmpty ∨ m = .orNone) → ∀ w, normalise fastkml m v = .ok w →
      y = .val w → h' = h → WT h' ∧ Grow h h' ∧ refOk h' it y := by
    intro v hv hmm w hn hy hh
    subst hv hy hh
    refine ⟨hw, Grow.refl _, ?_⟩
    have h1 : it.get ≠ .xmlSubList := by
      intro hg; rw [hg] at hm; rcases hmm with rfl | rfl | rfl <;> cases hm
    have h2 : it.get ≠ .coordinates := by
      intro hg; rw [hg] at hm; rcases hmm with rfl | rfl | rfl <;> cases hm
    have hr := argOk_ref hx h1 h2
    have h3 : it.get ≠ .subDtList := by
      intro hg; rw [hg] at hm; rcases hmm with rfl | rfl | rfl <;> cases hm
    have h4 : it.get ≠ .coordsList := by
      intro hg; rw [hg] at hm; rcases hmm with rfl | rfl | rfl <;> cases hm
    have hk : kindOk dim23 it v = true := by
      by_cases hxs : it.get = .xmlSub
      · simp only [refOk, hxs] at hr
        rcases hr with hr | ⟨_, hr, _⟩
        · cases hr; simp [kindOk, hxs]
        · cases hr
      · unfold refOk at hr
        cases hg : it.get <;> rw [hg] at hr h1 h2 h3 h4 hxs <;>
          first | exact absurd rfl h1 | exact absurd rfl h2 | exact absurd rfl h3 | exact absurd rfl h4 | exact absurd rfl hxs |
            (obtain ⟨v', he, hk⟩ := hr; cases he; exact hk)
    have hk' := storedScalar hm hk hmm hn
    unfold refOk
    cases hg : it.get <;> rw [hg] at h1 h2 h3 h4 <;> simp only <;>
      first | exact absurd rfl h1 | exact absurd rfl h2 | exact absurd rfl h3 | exact absurd rfl h4 | exact ⟨_, rfl, hk'⟩ | skip
    left
    simp only [kindOk, hg] at hk hk'
    rcases hmm with rfl | rfl | rfl
    · rw [hg] at hm; cases hm
    · rw [hg] at hm; cases hm
    · simp only [normalise] at hn
      split at hn
      · cases hn
      · cases hn
        split
        · simp only [refOk, hg] at hr
          rcases hr with hr | ⟨_, hr, _⟩
          · cases hr; rfl
          · cases hr
        · rfl
  cases m with
  | raw =>
    have h1 : it.get ≠ .xmlSubList := by intro hg; rw [hg] at hm; cases hm
    have h2 : it.get ≠ .coordinates := by intro hg; rw [hg] at hm; cases hm
    have hr := argOk_ref hx h1 h2
    cases x <;> cases hs <;> exact ⟨hw, Grow.refl _, hr⟩
  | clean =>
    cases x with
    | val v =>
      simp only [Store.storeArg] at hs
      split at hs
      · cases hs
      · rename_i w hn; cases hs; exact hval v rfl (Or.inl rfl) w hn rfl rfl
    | obj r => cases hs
    | list a => cases hs
  | orEmpty =>
    cases x with
    | val v =>
      simp only [Store.storeArg] at hs
      split at hs
      · cases hs
      · rename_i w hn; cases hs; exact hval v rfl (Or.inr (Or.inl rfl)) w hn rfl rfl
    | obj r => cases hs
    | list a => cases hs
  | orNone =>
    cases x with
    | val v =>
      simp only [Store.storeArg] at hs
      split at hs
      · cases hs
      · rename_i w hn; cases hs; exact hval v rfl (Or.inr (Or.inr rfl)) w hn rfl rfl
    | obj r => cases hs
    | list a => cases hs
  | listOr =>
    have hg : it.get = .xmlSubList := by
      cases hg : it.get <;> rw [hg] at hm <;> first | rfl | cases hm
    rw [hg] at hs
    rcases hx with rfl | hx
    · exact hnew [] hg (by simp) hs
    · simp only [hg] at hx
      obtain ⟨a, t, rs, rfl, hl, hr⟩ := hx
      simp only [Store.storeArg, hl] at hs
      exact hnew rs hg hr hs
  | listNotNone =>
    have hg : it.get = .xmlSubList := by
      cases hg : it.get <;> rw [hg] at hm <;> first | rfl | cases hm
    rw [hg] at hs
    rcases hx with rfl | hx
    · exact hnew [] hg (by simp) hs
    · simp only [hg] at hx
      obtain ⟨a, t, rs, rfl, hl, hr⟩ := hx
      simp only [Store.storeArg, hl] at hs
      exact hnew rs hg hr hs
  | listTruthy =>
    have hg : it.get = .xmlSubList := by
      cases hg : it.get <;> rw [hg] at hm <;> first | rfl | cases hm
    rw [hg] at hs
    rcases hx with rfl | hx
    · exact hnew [] hg (by simp) hs
    · simp only [hg] at hx
      obtain ⟨a, t, rs, rfl, hl, hr⟩ := hx
      simp only [Store.storeArg, hl] at hs
      split at hs
      · cases hs
      · rename_i rs' hk
        exact hnew rs' hg (fun r hrm => hr r (keepTruthy_sub hk r hrm)) hs
  | coordsOr =>
    have hg : it.get = .coordinates := by
      cases hg : it.get <;> rw [hg] at hm <;> first | rfl | cases hm
    rw [hg] at hs
    rcases hx with rfl | hx
    · exact hempty hg hs
    · have hr : refOk h it x := by rw [hg] at hx; exact hx
      simp only [refOk, hg] at hx
      rcases hx with ⟨p, rfl, hp⟩ | ⟨a, l, rfl, hl⟩
      · simp only [Store.storeArg] at hs
        split at hs
        · exact hempty hg hs
        · cases hs; exact ⟨hw, Grow.refl _, hr⟩
      · simp only [Store.storeArg, hl] at hs
        split at hs
        · split at hs
          · exact hempty hg hs
          · cases hs; exact ⟨hw, Grow.refl _, hr⟩
        · cases hs

/-- Every slot is registered, or stored as it is and not read. -/
def SlotOk (c : Cls) (s : Str × Norm) : Prop :=
  (∃ it ∈ fastkml.itemsOf c, it.attr = s.1 ∧ normOk it.get s.2 = true ∧ (s.2 = .orNone → it.get ≠ .xmlSub)) ∨ (s.2 = .raw ∧ visible c s.1 = false ∧ ∀ it ∈ fastkml.itemsOf c, it.attr ≠ s.1)

theorem slot_registered (c : Cls) : ∀ s ∈ (fastkml.info c).slots, SlotOk c s := by
  have key : ∀ c ∈ Cls.all, ((fastkml.info c).slots.all fun s =>
      ((fastkml.itemsOf c).any fun it => decide (it.attr = s.1) && (normOk it.get s.2 && decide (s.2 = .orNone → it.get ≠ .xmlSub))) ||
      (decide (s.2 = .raw) && (!visible c s.1 && (fastkml.itemsOf c).all fun it => decide (it.attr ≠ s.1)))) = true := by decide +kernel
  intro s hs
  have := List.all_eq_true.mp (key c (Cls.mem_all c)) s hs
  simpa only [SlotOk, List.any_eq_true, Bool.and_eq_true, Bool.or_eq_true, Bool.not_eq_true', List.all_eq_true, decide_eq_true_eq] using this

theorem fillSlots_wt {c : Cls} {n : Nat} {kw : List (Str × Ref F)} (slots : List (Str × Norm)) :
    ∀ {h h' : Store F} {xs : List (Str × Ref F)}, WT h →
    (∀ it ∈ fastkml.itemsOf c, argOk h it (kwRef it.attr kw)) →
    (∀ s ∈ slots, SlotOk c s) →
    h.fillSlots n c kw slots = .ok (h', xs) →
    WT h' ∧ Grow h h' ∧ xs.map Prod.fst = slots.map Prod.fst ∧
      ∀ p ∈ xs, (∃ it ∈ fastkml.itemsOf c, it.attr = p.1 ∧ it.get ≠ .subDtList ∧ it.get ≠ .coordsList ∧ refOk h' it p.2) ∨
        visible c p.1 = false := by
  induction slots with
  | nil => intro h h' xs hw _ _ hf; cases hf; exact ⟨hw, Grow.refl _, rfl, by simp⟩
  | cons s slots ih =>
    intro h h' xs hw harg hsl hf
    obtain ⟨a, m⟩ := s
    simp only [Store.fillSlots] at hf
    split at hf
    · cases hf
    · rename_i h1 x hs
      split at hf
      · cases hf
      · rename_i h2 ys hf'
        cases hf
        have h1 : WT h1 ∧ Grow h h1 ∧ ((∃ it ∈ fastkml.itemsOf c, it.attr = a ∧ it.get ≠ .subDtList ∧ it.get ≠ .coordsList ∧
            refOk h1 it x) ∨ visible c a = false) := by
          rcases hsl (a, m) (by simp) with ⟨it, hit, ha, hm, _⟩ | ⟨hm, hvis, _⟩
          · simp only at ha hm
            subst ha
            obtain ⟨hw1, g1, hr⟩ := storeArg_wt hw hit hm (harg it hit) hs
            refine ⟨hw1, g1, Or.inl ⟨it, hit, rfl, ?_, ?_, hr⟩⟩
            · intro hg; rw [hg] at hm; cases m <;> cases hm
            · intro hg; rw [hg] at hm; cases m <;> cases hm
          · simp only at hm hvis
            subst hm
            simp only [Store.storeArg] at hs
            cases hs
            exact ⟨hw, Grow.refl _, Or.inr hvis⟩
        obtain ⟨hw1, g1, hr⟩ := h1
        obtain ⟨hw2, g2, hk, hp⟩ := ih hw1 (fun it hit => argOk_grow g1 (harg it hit))
          (fun s hs => hsl s (List.mem_cons_of_mem _ hs)) hf'
        refine ⟨hw2, g1.trans g2, by simp [hk], ?_⟩
        intro p hpm
        rcases List.mem_cons.mp hpm with rfl | hpm
        · rcases hr with ⟨it, hit, ha, h1, h2, hr⟩ | hr
          · exact Or.inl ⟨it, hit, ha, h1, h2, refOk_ext g2.ext hr⟩
          · exact Or.inr hr
        · exact hp p hpm

theorem trackItems_dim {kw : List (Str × Val Cls F)} {l : List (TrackItem F)}
    (h0 : kwGet (s% "track_items") kw = .none ∨ ∃ m, kwGet (s% "track_items") kw = .items m ∧
      ∀ i ∈ m, i.coord.length = 2 ∨ i.coord.length = 3) (h : trackItems kw = .ok l) :
    ∀ i ∈ l, i.coord.length = 2 ∨ i.coord.length = 3 := by
  simp only [trackItems] at h
  split at h
  · rename_i ti ws cs as h1 _ _ _
    have hti : ∀ i ∈ ti, i.coord.length = 2 ∨ i.coord.length = 3 := by
      rcases h0 with h0 | ⟨m, h0, hm⟩
      · rw [h0] at h1; cases h1; simp
      · rw [h0] at h1; cases h1; exact hm
    split at h
    · cases h
    · split at h
      · have := zipItems_dim h
        simpa using this
      · cases h; exact hti
  · cases h

theorem trackArgs_get {h : Store F} {kw : List (Str × Ref F)} {as : List (Str × Val Cls F)} (ha : h.trackArgs kw = some as) :
    h.value (fun _ => none) (kwRef (s% "track_items") kw) = some (kwGet (s% "track_items") as) := by
  simp only [Store.trackArgs, specialArgs, optAll] at ha
  cases hv : h.value (fun _ => none) (kwRef (s% "track_items") kw) with
  | none => rw [hv] at ha; cases ha
  | some v =>
    rw [hv] at ha
    simp only [Option.map_some] at ha
    split at ha
    · rename_i h1 _
      cases h1
      cases ha
      rfl
    · cases ha

theorem specialInit_wt {h h' : Store F} {n : Nat} {s : Special} {kw sp : List (Str × Ref F)} (hw : WT h)
    (ht : s = .track → kwRef (s% "track_items") kw = .val .none ∨ itemsOk h (kwRef (s% "track_items") kw))
    (hs : h.specialInit n s kw = .ok (h', sp)) :
    WT h' ∧ Grow h h' ∧ (s = .track → ∃ x, sp = [(s% "track_items", x)] ∧ itemsOk h' x) ∧ (s ≠ .track → sp = []) := by
  cases s with
  | none => cases hs; exact ⟨hw, Grow.refl _, by simp, by simp⟩
  | kml => cases hs; exact ⟨hw, Grow.refl _, by simp, by simp⟩
  | placemark =>
    simp only [Store.specialInit] at hs
    split at hs
    · cases hs
    · cases hs; exact ⟨hw, Grow.refl _, by simp, by simp⟩
  | schema =>
    simp only [Store.specialInit] at hs
    split at hs
    · cases hs
    · split at hs
      · cases hs
      · cases hs; exact ⟨hw, Grow.refl _, by simp, by simp⟩
    · cases hs
  | track =>
    simp only [Store.specialInit] at hs
    split at hs
    · cases hs
    · rename_i as has
      split at hs
      · cases hs
      · rename_i l hl
        cases hs
        have hdim : ∀ i ∈ l, i.coord.length = 2 ∨ i.coord.length = 3 := by
          refine trackItems_dim ?_ hl
          have hget := trackArgs_get has
          rcases ht rfl with h0 | ⟨a, cs, h0, hcs⟩
          · rw [h0] at hget; exact Or.inl (Option.some.inj hget).symm
          · rw [h0] at hget
            have := hw.lists _ _ _ hcs
            cases cs with
            | items m =>
              simp only [Store.value, hcs, Option.some.injEq] at hget
              exact Or.inr ⟨m, hget.symm, this⟩
            | coords m => exact this.elim
            | objs m => exact this.elim
        exact ⟨newList_wt hw hdim, grow_newList _ _ _, fun _ => ⟨_, rfl, _, _, rfl, newList_get h _ _⟩, by simp⟩

theorem kwRef_append {a : Str} {l m : List (Str × Ref F)} (h : a ∉ l.map Prod.fst) : kwRef a (l ++ m) = kwRef a m := by
  unfold kwRef
  induction l with
  | nil => rfl
  | cons p l ih =>
    simp only [List.map_cons, List.mem_cons, not_or] at h
    simp only [List.cons_append, dget]
    rw [if_neg (fun he => h.1 he.symm)]
    exact ih h.2

theorem kwRef_mem {a : Str} {l : List (Str × Ref F)} (h : a ∈ l.map Prod.fst) : (a, kwRef a l) ∈ l := by
  unfold kwRef
  cases hd : dget a l with
  | none => exact absurd h (dget_eq_none.mp hd)
  | some x => exact dget_mem hd

theorem make_wt {h h' : Store F} {n : Nat} {c : Cls} {ns : Option Str} {nss : NsMap} {kw : List (Str × Ref F)} (hw : WT h)
    (hok : actOk h (.make c ns nss kw)) (hs : h.make n c ns nss kw = .ok h') : WT h' ∧ Grow h h' := by
  obtain ⟨harg, htr⟩ := hok
  have hR := fastkml_readOk c
  simp only [Store.make] at hs
  split at hs
  · cases hs
  · split at hs
    · cases hs
    · rename_i h1 sp hsp
      split at hs
      · cases hs
      · rename_i h2 sl hsl
        cases hs
        obtain ⟨hw1, g1, ht1, ht2⟩ := specialInit_wt hw htr hsp
        obtain ⟨hw2, g2, hk, hp⟩ := fillSlots_wt _ hw1 (fun it hit => argOk_grow g1 (harg it hit)) (slot_registered c) hsl
        refine ⟨newObj_wt hw2 ?_, (g1.trans g2).trans (grow_newObj _ _)⟩
        have hknown : ∀ a ∈ (fastkml.info c).slots.map Prod.fst, a ∉ sp.map Prod.fst := by
          intro a ha hm
          by_cases hst : (fastkml.info c).special = .track
          · obtain ⟨x, rfl, _⟩ := ht1 hst
            simp only [List.map_cons, List.map_nil, List.mem_singleton] at hm
            subst hm
            have := hR.known
            rw [List.nodup_append] at this
            exact this.2.2 _ (by rw [hst]; simp [specialArgs]) _ ha rfl
          · rw [ht2 hst] at hm; cases hm
        have hext : ∀ a ∈ specialArgs (fastkml.info c).special ++ (fastkml.info c).slots.map Prod.fst,
            a ∉ (kw.filter fun p => decide (p.1 ∉ specialArgs (fastkml.info c).special ++
              (fastkml.info c).slots.map Prod.fst)).map Prod.fst := by
          intro a ha hm
          obtain ⟨p, hp, rfl⟩ := List.mem_map.mp hm
          have := (List.mem_filter.mp hp).2
          simp only [decide_eq_true_eq] at this
          exact this ha
        constructor
        · intro it hit
          by_cases h1 : it.get = .subDtList
          · simp [refOk, h1]
          by_cases h2 : it.get = .coordsList
          · simp [refOk, h2]
          obtain ⟨m, hm, _⟩ := slotOk_slot (hR.slots it hit) h1 h2
          have hslot : it.attr ∈ (fastkml.info c).slots.map Prod.fst := List.mem_map.mpr ⟨_, hm, rfl⟩
          simp only
          rw [List.append_assoc, kwRef_append (hext _ (List.mem_append.mpr (Or.inr hslot))), kwRef_append (hknown _ hslot)]
          rcases hp _ (kwRef_mem (a := it.attr) (hk ▸ hslot)) with ⟨it', hit', he, _, _, hr⟩ | hvis
          case inr =>
            have := visible_iff.mpr (Or.inl ⟨it, hit, rfl, h1, h2⟩)
            rw [this] at hvis
            cases hvis
          have : it' = it := injOn_of_nodup_map hR.attrs hit' hit he
          subst this
          exact hr
        · intro hst
          obtain ⟨x, rfl, hx⟩ := ht1 hst
          simp only
          rw [List.append_assoc, kwRef_append (hext _ (List.mem_append.mpr (Or.inl (by simp only at hst; rw [hst]; simp [specialArgs]))))]
          exact itemsOk_ext g2.ext hx
        · intro p hpm hvis
          simp only at hpm hvis
          rcases List.mem_append.mp hpm with hpm | hpm
          rcases List.mem_append.mp hpm with hpm | hpm
          · exfalso
            refine hext p.1 ?_ (List.mem_map.mpr ⟨p, hpm, rfl⟩)
            rcases visible_iff.mp hvis with ⟨it, hit, ha, _⟩ | ⟨hst, ha⟩
            · rw [← ha]; exact hR.attr_known hit
            · rw [ha, hst]; simp [specialArgs]
          · by_cases hst : (fastkml.info c).special = .track
            · obtain ⟨x, rfl, hx⟩ := ht1 hst
              simp only [List.mem_singleton] at hpm
              subst hpm
              exact itemsOk_live (itemsOk_ext g2.ext hx)
            · rw [ht2 hst] at hpm; cases hpm
          · rcases hp p hpm with ⟨it, hit, _, h1, h2, hr⟩ | hv
            · exact refOk_live h1 h2 hr
            · rw [hv] at hvis; cases hvis

end Verif
