import Verif.Lemmas.StoreMake

/-!
# What a step changes
-/

set_option linter.unusedSectionVars false
set_option linter.unusedSimpArgs false

namespace Verif

open Spec

variable {F : Type} [PyExt F]

/-- Two stores that agree on an object and everything below it show the same. -/
theorem view_agree {h h' : Store F} {S : Nat → Prop} (hc : ∀ s t, S s → HoldsObj h s t → S t)
    (ho : ∀ s : Nat, S s → h'.objs[s]? = h.objs[s]?)
    (hl : ∀ (s l : Nat), S s → HoldsList h s l → h'.lists[l]? = h.lists[l]?) (m : Nat) : ∀ r, S r → h'.view m r = h.view m r := by
  induction m with
  | zero => intro r _; rfl
  | succ m ih =>
    intro r hr
    simp only [Store.view, ho r hr]
    cases hb : h.objs[r]? with
    | none => rfl
    | some b =>
      simp only
      congr 1
      refine optAll_congr ?_
      rintro ⟨a, x⟩ hm
      obtain ⟨hm, hvis⟩ := List.mem_filter.mp hm
      simp only [Store.attrValue]
      congr 1
      cases x with
      | val v => rfl
      | obj s => exact ih s (hc r s hr ⟨b, a, _, hb, hm, hvis, Or.inl rfl⟩)
      | list l =>
        simp only [Store.value, hl r l hr ⟨b, a, hb, hm, hvis⟩]
        cases hcl : h.lists[l]? with
        | none => rfl
        | some p =>
          obtain ⟨t, cs⟩ := p
          cases cs with
          | coords l => rfl
          | items l => rfl
          | objs rs =>
            simp only
            congr 1
            exact optAll_congr fun s hs => ih s (hc r s hr ⟨b, a, _, hb, hm, hvis, Or.inr ⟨l, t, rs, rfl, hcl, hs⟩⟩)

theorem atOrBelow_closed {h : Store F} (r : Nat) : ∀ s t, (s = r ∨ Beneath h s r) → HoldsObj h s t → (t = r ∨ Beneath h t r) := by
  rintro s t (rfl | hs) ht
  · exact Or.inr (.held ht)
  · exact Or.inr (below_snoc hs ht)

theorem view_setObj {h : Store F} {s r : Nat} {b : Cell F} (h1 : r ≠ s) (h2 : ¬ Beneath h s r) (m : Nat) :
    (⟨h.objs.set s b, h.lists⟩ : Store F).view m r = h.view m r := by
  refine view_agree (h' := ⟨h.objs.set s b, h.lists⟩) (S := fun t => t = r ∨ Beneath h t r) (atOrBelow_closed r) ?_ (fun _ _ _ _ => rfl)
    m r (Or.inl rfl)
  intro t ht
  have : s ≠ t := by
    rintro rfl
    rcases ht with rfl | ht
    · exact h1 rfl
    · exact h2 ht
  simp [List.getElem?_set, this]

theorem view_setList {h : Store F} {a r : Nat} {c : ElemTy × Cells F} (h1 : ∀ s, s = r ∨ Beneath h s r → ¬ HoldsList h s a) (m : Nat) :
    (⟨h.objs, h.lists.set a c⟩ : Store F).view m r = h.view m r := by
  refine view_agree (h' := ⟨h.objs, h.lists.set a c⟩) (S := fun t => t = r ∨ Beneath h t r) (atOrBelow_closed r) (fun _ _ => rfl) ?_
    m r (Or.inl rfl)
  intro s l hs hl
  have : a ≠ l := by rintro rfl; exact h1 s hs hl
  simp [List.getElem?_set, this]

/-- Everything held exists. -/
theorem holds_lt {h : Store F} (hw : WT h) {r s : Nat} (hs : HoldsObj h r s) : s < h.objs.length := by
  obtain ⟨b, a, x, hb, hm, hvis, hx⟩ := hs
  have hlive := (hw.objs _ _ hb).live _ hm hvis
  rcases hx with rfl | ⟨l, t, rs, rfl, hl, hs⟩
  · exact hlive
  · have := hw.lists _ _ _ hl
    cases t with
    | coords => exact this.elim
    | items => exact this.elim
    | objs cs =>
      obtain ⟨b, hb, _⟩ := this s hs
      exact (List.getElem?_eq_some_iff.mp hb).1

theorem holdsList_lt {h : Store F} (hw : WT h) {r l : Nat} (hl : HoldsList h r l) : l < h.lists.length := by
  obtain ⟨b, a, hb, hm, hvis⟩ := hl
  exact (hw.objs _ _ hb).live _ hm hvis

theorem view_grow_eq {h h' : Store F} (hw : WT h) (g : Grow h h') {r : Nat} (hr : r < h.objs.length) (m : Nat) :
    h'.view m r = h.view m r := by
  refine view_agree (S := fun t => t < h.objs.length) (fun s t _ ht => holds_lt hw ht) ?_ ?_ m r hr
  · intro s hs
    rw [List.getElem?_eq_getElem hs]
    exact g.objs _ _ (List.getElem?_eq_getElem hs)
  · intro s l _ hl
    have := holdsList_lt hw hl
    rw [List.getElem?_eq_getElem this]
    exact g.lists _ _ (List.getElem?_eq_getElem this)

/-! ## Lists of the caller -/

/-- Slots that keep a list they are given. -/
theorem keeping_slot (c : Cls) : ∀ a, (a, Norm.coordsOr) ∈ (fastkml.info c).slots → c = .Coordinates ∧ a = s% "coords" := by
  have key : ∀ c ∈ Cls.all, ∀ s ∈ (fastkml.info c).slots, s.2 = Norm.coordsOr → c = .Coordinates ∧ s.1 = s% "coords" := by
    decide +kernel
  exact fun a ha => key c (Cls.mem_all c) _ ha rfl

/-- Slots that keep the argument do not take lists. -/
theorem raw_slot {h : Store F} {c : Cls} {kw : List (Str × Ref F)} (harg : ∀ it ∈ fastkml.itemsOf c, argOk h it (kwRef it.attr kw))
    {a : Str} (ha : (a, Norm.raw) ∈ (fastkml.info c).slots) (hvis : visible c a = true) {l : Nat} : kwRef a kw ≠ .list l := by
  intro he
  rcases slot_registered c _ ha with ⟨it, hit, hat, hm, _⟩ | ⟨_, hv, _⟩
  · simp only at hat hm
    subst hat
    have hx := harg it hit
    rw [he] at hx
    have h1 : it.get ≠ .xmlSubList := by intro hg; rw [hg] at hm; cases hm
    have h2 : it.get ≠ .coordinates := by intro hg; rw [hg] at hm; cases hm
    have hr := argOk_ref hx h1 h2
    cases hg : it.get <;> rw [hg] at hm h1 h2 <;> simp only [refOk, hg] at hr <;>
      first | exact h1 rfl | exact h2 rfl | (cases hm; done) | (obtain ⟨_, hu, _⟩ := hr; cases hu; done) |
        (rcases hr with hr | ⟨_, hr, _⟩ <;> cases hr)
  · rw [hvis] at hv; cases hv

/-- The lists of a new object are new. -/
theorem make_lists {h h' : Store F} {n : Nat} {c : Cls} {ns : Option Str} {nss : NsMap} {kw : List (Str × Ref F)}
    (hok : actOk h (.make c ns nss kw)) (hs : h.make n c ns nss kw = .ok h') {l : Nat} (hl : HoldsList h' h.objs.length l) :
    h.lists.length ≤ l ∨ (c = .Coordinates ∧ kwRef (s% "coords") kw = .list l) := by
  obtain ⟨b, hb, hc, _, hf⟩ := make_cell hs
  obtain ⟨b', a, hb', hm, hvis⟩ := hl
  rw [hb] at hb'
  simp only [List.getElem?_concat_length, Option.some.injEq] at hb'
  subst hb'
  rw [hc] at hvis
  rcases hf a l hm hvis with h1 | ⟨h1, h2 | h2⟩
  · exact Or.inl h1
  · exact absurd h1 (raw_slot hok.1 h2 hvis)
  · obtain ⟨h3, h4⟩ := keeping_slot c a h2
    exact Or.inr ⟨h3, h4 ▸ h1⟩

/-! ## Lists belong to one object -/

/-- No two objects hold the same list. -/
def Own (h : Store F) : Prop := ∀ r s l, HoldsList h r l → HoldsList h s l → r = s

theorem holdsList_lists {h : Store F} {ls : List (ElemTy × Cells F)} {r l : Nat} :
    HoldsList (⟨h.objs, ls⟩ : Store F) r l ↔ HoldsList h r l := Iff.rfl

/-- The lists held by new objects are new; each by one of them. -/
structure Adds (h h' : Store F) : Prop where
  len : h.lists.length ≤ h'.lists.length
  objs : ∃ bs, h'.objs = h.objs ++ bs
  held : ∀ r l, h.objs.length ≤ r → HoldsList h' r l → h.lists.length ≤ l ∧ l < h'.lists.length
  own : ∀ r s l, h.objs.length ≤ r → h.objs.length ≤ s → HoldsList h' r l → HoldsList h' s l → r = s

theorem holdsList_objs {h h' : Store F} {r l : Nat} (ho : h'.objs[r]? = h.objs[r]?) : HoldsList h' r l ↔ HoldsList h r l := by
  simp only [HoldsList, ho]

theorem holdsList_old {h h' : Store F} {bs : List (Cell F)} (ho : h'.objs = h.objs ++ bs) {r l : Nat} (hr : r < h.objs.length) :
    HoldsList h' r l ↔ HoldsList h r l :=
  holdsList_objs (by rw [ho, List.getElem?_append_left hr])

theorem not_holdsList {h : Store F} {r l : Nat} (hr : h.objs.length ≤ r) : ¬ HoldsList h r l := by
  rintro ⟨b, a, hb, _⟩
  have := (List.getElem?_eq_some_iff.mp hb).1
  omega

theorem Adds.refl (h : Store F) : Adds h h :=
  ⟨Nat.le_refl _, ⟨[], by simp⟩, fun r l hr hl => absurd hl (not_holdsList hr), fun r s l hr _ hl _ => absurd hl (not_holdsList hr)⟩

theorem Adds.trans {h h1 h2 : Store F} (a : Adds h h1) (b : Adds h1 h2) : Adds h h2 := by
  obtain ⟨bs, hb⟩ := a.objs
  obtain ⟨cs, hc⟩ := b.objs
  have hlen : h.objs.length ≤ h1.objs.length := by rw [hb]; simp
  have key : ∀ r l, h.objs.length ≤ r → HoldsList h2 r l →
      (r < h1.objs.length ∧ HoldsList h1 r l ∧ h.lists.length ≤ l ∧ l < h1.lists.length) ∨
      (h1.objs.length ≤ r ∧ h1.lists.length ≤ l ∧ l < h2.lists.length) := by
    intro r l hr hl
    by_cases hlt : r < h1.objs.length
    · have := (holdsList_old hc hlt).mp hl
      exact Or.inl ⟨hlt, this, a.held r l hr this⟩
    · exact Or.inr ⟨by omega, b.held r l (by omega) hl⟩
  refine ⟨Nat.le_trans a.len b.len, ⟨bs ++ cs, by rw [hc, hb, List.append_assoc]⟩, ?_, ?_⟩
  · intro r l hr hl
    have := a.len
    have := b.len
    rcases key r l hr hl with ⟨_, _, h1, h2⟩ | ⟨_, h1, h2⟩ <;> omega
  · intro r s l hr hs hrl hsl
    rcases key r l hr hrl with ⟨r1, r2, r3, r4⟩ | ⟨r1, r2, r3⟩ <;> rcases key s l hs hsl with ⟨s1, s2, s3, s4⟩ | ⟨s1, s2, s3⟩
    · exact a.own r s l hr hs r2 s2
    · omega
    · omega
    · exact b.own r s l r1 s1 hrl hsl

theorem Adds.newList (h : Store F) (t : ElemTy) (c : Cells F) : Adds h (h.newList t c).1 :=
  ⟨by simp [Store.newList], ⟨[], by simp [Store.newList]⟩,
    fun r l hr hl => absurd (holdsList_lists.mp hl) (not_holdsList hr),
    fun r s l hr _ hl _ => absurd (holdsList_lists.mp hl) (not_holdsList hr)⟩

/-- A list made since, and held by no object made since. -/
def Loose (h h' : Store F) (l : Nat) : Prop :=
  h.lists.length ≤ l ∧ l < h'.lists.length ∧ ∀ r, h.objs.length ≤ r → ¬ HoldsList h' r l

theorem Loose.later {h h1 h2 : Store F} {l : Nat} (hl : Loose h h1 l) (b : Adds h1 h2) : Loose h h2 l := by
  obtain ⟨h3, h4, h5⟩ := hl
  refine ⟨h3, by have := b.len; omega, fun r hr hh => ?_⟩
  obtain ⟨cs, hc⟩ := b.objs
  by_cases hlt : r < h1.objs.length
  · exact h5 r hr ((holdsList_old hc hlt).mp hh)
  · have := b.held r l (by omega) hh
    omega

theorem Loose.earlier {h h1 h2 : Store F} {l : Nat} (a : Adds h h1) (hl : Loose h1 h2 l) (b : Adds h1 h2) : Loose h h2 l := by
  obtain ⟨h3, h4, h5⟩ := hl
  obtain ⟨bs, hb⟩ := a.objs
  obtain ⟨cs, hc⟩ := b.objs
  refine ⟨by have := a.len; omega, h4, fun r hr hh => ?_⟩
  by_cases hlt : r < h1.objs.length
  · have := a.held r l hr ((holdsList_old hc hlt).mp hh)
    omega
  · exact h5 r (by omega) hh

theorem Adds.newObj {h h1 : Store F} (a : Adds h h1) {b : Cell F} (hb : ∀ k l, (k, .list l) ∈ b.attrs → Loose h h1 l) :
    Adds h (h1.newObj b) := by
  obtain ⟨bs, hbs⟩ := a.objs
  have hlen : h.objs.length ≤ h1.objs.length := by rw [hbs]; simp
  have key : ∀ r l, h.objs.length ≤ r → HoldsList (h1.newObj b) r l →
      (r < h1.objs.length ∧ HoldsList h1 r l) ∨ (r = h1.objs.length ∧ Loose h h1 l) := by
    intro r l hr hl
    by_cases hlt : r < h1.objs.length
    · exact Or.inl ⟨hlt, (holdsList_old (h' := h1.newObj b) (bs := [b]) rfl hlt).mp hl⟩
    · obtain ⟨c, k, hc, hm, _⟩ := hl
      have hr' := (List.getElem?_eq_some_iff.mp hc).1
      simp only [Store.newObj, List.length_append, List.length_cons, List.length_nil] at hr'
      have he : r = h1.objs.length := by omega
      subst he
      rw [newObj_get] at hc
      cases hc
      exact Or.inr ⟨rfl, hb k l hm⟩
  refine ⟨a.len, ⟨bs ++ [b], by simp [Store.newObj, hbs]⟩, ?_, ?_⟩
  · intro r l hr hl
    rcases key r l hr hl with ⟨_, h1⟩ | ⟨_, h1, h2, _⟩
    · exact a.held r l hr h1
    · exact ⟨h1, h2⟩
  · intro r s l hr hs hrl hsl
    rcases key r l hr hrl with ⟨r1, r2⟩ | ⟨r1, r2⟩ <;> rcases key s l hs hsl with ⟨s1, s2⟩ | ⟨s1, s2⟩
    · exact a.own r s l hr hs r2 s2
    · exact absurd r2 (s2.2.2 r hr)
    · exact absurd s2 (r2.2.2 s hs)
    · omega

theorem newList_loose {h h1 : Store F} (a : Adds h h1) {t : ElemTy} {c : Cells F} {l : Nat}
    (hl : (h1.newList t c).2 = .list l) : Loose h (h1.newList t c).1 l := by
  cases hl
  refine ⟨a.len, by simp [Store.newList], fun r hr hh => ?_⟩
  have := a.held r _ hr (holdsList_lists.mp hh)
  omega

mutual
theorem load_adds (t : ElemTy) : ∀ (v : Val Cls F) (h : Store F), Adds h (Store.load t v h).1 ∧
    ∀ l, (Store.load t v h).2 = .list l → Loose h (Store.load t v h).1 l
  | .obj c ns nss attrs => fun h => by
    obtain ⟨h1, h2⟩ := loadAttrs_adds c attrs h
    simp only [Store.load, Store.addObj]
    exact ⟨h1.newObj h2, fun l hl => by cases hl⟩
  | .list l => fun h => by
    have h1 := loadList_adds l h
    simp only [Store.load]
    exact ⟨h1.trans (Adds.newList _ _ _), fun l hl => newList_loose h1 hl⟩
  | .coords l => fun h => by
    simp only [Store.load]
    exact ⟨Adds.newList _ _ _, fun l hl => newList_loose (Adds.refl h) hl⟩
  | .items l => fun h => by
    simp only [Store.load]
    exact ⟨Adds.newList _ _ _, fun l hl => newList_loose (Adds.refl h) hl⟩
  | .none => fun h => by simp only [Store.load]; exact ⟨Adds.refl h, fun l hl => by cases hl⟩
  | .str s => fun h => by simp only [Store.load]; exact ⟨Adds.refl h, fun l hl => by cases hl⟩
  | .bool b => fun h => by simp only [Store.load]; exact ⟨Adds.refl h, fun l hl => by cases hl⟩
  | .int i => fun h => by simp only [Store.load]; exact ⟨Adds.refl h, fun l hl => by cases hl⟩
  | .float f => fun h => by simp only [Store.load]; exact ⟨Adds.refl h, fun l hl => by cases hl⟩
  | .enum e s => fun h => by simp only [Store.load]; exact ⟨Adds.refl h, fun l hl => by cases hl⟩
  | .dt d => fun h => by simp only [Store.load]; exact ⟨Adds.refl h, fun l hl => by cases hl⟩
  | .floats l => fun h => by simp only [Store.load]; exact ⟨Adds.refl h, fun l hl => by cases hl⟩
  | .whens l => fun h => by simp only [Store.load]; exact ⟨Adds.refl h, fun l hl => by cases hl⟩
termination_by structural v => v

theorem loadAttrs_adds (c : Cls) : ∀ (as : List (Str × Val Cls F)) (h : Store F), Adds h (Store.loadAttrs c as h).1 ∧
    ∀ k l, (k, .list l) ∈ (Store.loadAttrs c as h).2 → Loose h (Store.loadAttrs c as h).1 l
  | [] => fun h => by simp only [Store.loadAttrs]; exact ⟨Adds.refl h, by simp⟩
  | (a, v) :: r => fun h => by
    obtain ⟨h1, h2⟩ := load_adds (listType c a) v h
    obtain ⟨h3, h4⟩ := loadAttrs_adds c r (Store.load (listType c a) v h).1
    simp only [Store.loadAttrs]
    refine ⟨h1.trans h3, fun k l hm => ?_⟩
    rcases List.mem_cons.mp hm with he | hm
    · exact (h2 l (Prod.mk.inj he).2.symm).later h3
    · exact (h4 k l hm).earlier h1 h3
termination_by structural l => l

theorem loadList_adds : ∀ (l : List (Val Cls F)) (h : Store F), Adds h (Store.loadList l h).1
  | [] => fun h => by simp only [Store.loadList]; exact Adds.refl h
  | v :: r => fun h => by
    simp only [Store.loadList]
    exact (load_adds (.objs []) v h).1.trans (loadList_adds r _)
termination_by structural l => l
end

/-! ## Tame steps -/

theorem own_adds {h h' : Store F} (hw : WT h) (ho : Own h) (a : Adds h h') : Own h' := by
  obtain ⟨bs, hb⟩ := a.objs
  intro r s l hr hs
  by_cases h1 : r < h.objs.length <;> by_cases h2 : s < h.objs.length
  · exact ho r s l ((holdsList_old hb h1).mp hr) ((holdsList_old hb h2).mp hs)
  · have h3 := holdsList_lt hw ((holdsList_old hb h1).mp hr)
    have h4 := a.held s l (by omega) hs
    omega
  · have h3 := holdsList_lt hw ((holdsList_old hb h2).mp hs)
    have h4 := a.held r l (by omega) hr
    omega
  · exact a.own r s l (by omega) (by omega) hr hs

theorem make_adds {h h' : Store F} {n : Nat} {c : Cls} {ns : Option Str} {nss : NsMap} {kw : List (Str × Ref F)} (hw' : WT h')
    (hok : actOk h (.make c ns nss kw)) (ht : Tame (F := F) (.make c ns nss kw)) (hs : h.make n c ns nss kw = .ok h') : Adds h h' := by
  obtain ⟨b, hb, _, hlen, _⟩ := make_cell hs
  have key : ∀ r l, h.objs.length ≤ r → HoldsList h' r l → r = h.objs.length ∧ h.lists.length ≤ l := by
    intro r l hr hl
    have hr' : r < h'.objs.length := by
      obtain ⟨c, k, hc, _⟩ := hl
      exact (List.getElem?_eq_some_iff.mp hc).1
    rw [hb] at hr'
    simp only [List.length_append, List.length_cons, List.length_nil] at hr'
    have he : r = h.objs.length := by omega
    subst he
    refine ⟨rfl, ?_⟩
    rcases make_lists hok hs hl with h1 | ⟨h1, h2⟩
    · exact h1
    · exact absurd h2 (ht h1 l)
  refine ⟨hlen, ⟨[b], hb⟩, fun r l hr hl => ⟨(key r l hr hl).2, holdsList_lt hw' hl⟩, fun r s l hr hs hrl hsl => ?_⟩
  rw [(key r l hr hrl).1, (key s l hs hsl).1]

theorem holdsList_set {h : Store F} {r : Nat} {b b' : Cell F} (hb : h.objs[r]? = some b) (hc : b'.cls = b.cls)
    (hl : ∀ a l, (a, .list l) ∈ b'.attrs → (a, .list l) ∈ b.attrs) {s l : Nat}
    (hs : HoldsList (⟨h.objs.set r b', h.lists⟩ : Store F) s l) : HoldsList h s l := by
  obtain ⟨d, a, hd, hm, hvis⟩ := hs
  rcases set_get hd with ⟨rfl, rfl, _⟩ | ⟨_, hd⟩
  · exact ⟨b, a, hb, hl a l hm, hc ▸ hvis⟩
  · exact ⟨d, a, hd, hm, hvis⟩

theorem own_anti {h h' : Store F} (ho : Own h) (hh : ∀ r l, HoldsList h' r l → HoldsList h r l) : Own h' :=
  fun r s l hr hs => ho r s l (hh r l hr) (hh s l hs)

/-- What a tame step does to the lists that objects hold. -/
theorem tame_step {h : Store F} {n : Nat} {op : Act F} (hw : WT h) (hok : actOk h op) (ht : Tame op) :
    Adds h (h.next n op) ∨ (h.lists.length = (h.next n op).lists.length ∧ ∀ r l, HoldsList (h.next n op) r l → HoldsList h r l) := by
  unfold Store.next
  cases hs : h.step n op with
  | error e => exact Or.inl (Adds.refl h)
  | ok h' =>
    simp only
    cases op with
    | list t l => cases hs; exact Or.inl (Adds.newList _ _ _)
    | change a l =>
      simp only [Store.step] at hs
      split at hs
      · cases hs
      · cases hs; exact Or.inr ⟨by simp, fun r l hl => hl⟩
    | make c ns nss kw => exact Or.inl (make_adds (step_wt hw hok hs) hok ht hs)
    | read v => cases hs; exact Or.inl (load_adds _ _ _).1
    | assign r a x =>
      simp only [Store.step] at hs
      split at hs
      · cases hs
      · rename_i b hb
        split at hs
        · cases hs
        · cases hs
          refine Or.inr ⟨rfl, fun s l hl => holdsList_set (b' := ⟨b.cls, b.ns, b.nss, dset a x b.attrs⟩) hb rfl (fun k m hm => ?_) hl⟩
          rcases mem_dset hm with he | hm
          · exact absurd (Prod.mk.inj he).2.symm (ht m)
          · exact hm
    | rename r ns =>
      simp only [Store.step] at hs
      split at hs
      · cases hs
      · rename_i b hb
        cases hs
        exact Or.inr ⟨rfl, fun s l hl => holdsList_set (b' := ⟨b.cls, ns, b.nss, b.attrs⟩) hb rfl (fun k m hm => hm) hl⟩
    | append r x =>
      simp only [Store.step] at hs
      repeat' split at hs
      all_goals first | (cases hs; done) | (cases hs; exact Or.inr ⟨by simp, fun r l hl => hl⟩)

theorem tame_wt {n : Nat} {h h' : Store F} (hw : WT h) (ht : TameSteps n h h') : WT h' := by
  induction ht with
  | refl => exact hw
  | step _ hok _ ih =>
    unfold Store.next
    split
    · rename_i h'' hs; exact step_wt ih hok hs
    · exact ih

theorem tame_own {n : Nat} {h h' : Store F} (hw : WT h) (ho : Own h) (ht : TameSteps n h h') : Own h' := by
  induction ht with
  | refl => exact ho
  | step hst hok htm ih =>
    rcases tame_step (n := n) (tame_wt hw hst) hok htm with h1 | ⟨_, h1⟩
    · exact own_adds (tame_wt hw hst) ih h1
    · exact own_anti ih h1

/-- A list that no object holds stays so. -/
theorem tame_free {n : Nat} {h h' : Store F} (hw : WT h) {l : Nat} (hl : l < h.lists.length) (hf : ∀ r, ¬ HoldsList h r l)
    (ht : TameSteps n h h') : l < h'.lists.length ∧ ∀ r, ¬ HoldsList h' r l := by
  induction ht with
  | refl => exact ⟨hl, hf⟩
  | step hst hok htm ih =>
    rename_i h1 op
    rcases tame_step (n := n) (tame_wt hw hst) hok htm with h2 | ⟨h2, h3⟩
    · refine ⟨Nat.lt_of_lt_of_le ih.1 h2.len, fun r hr => ?_⟩
      obtain ⟨bs, hb⟩ := h2.objs
      by_cases hlt : r < h1.objs.length
      · exact ih.2 r ((holdsList_old hb hlt).mp hr)
      · have h3 := h2.held r l (by omega) hr
        have h4 := ih.1
        omega
    · exact ⟨h2 ▸ ih.1, fun r hr => ih.2 r (h3 r l hr)⟩

end Verif
