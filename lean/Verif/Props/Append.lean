import Verif.Heap

/-!
# C38: appending
-/

set_option linter.unusedSectionVars false
set_option linter.unusedSimpArgs false

namespace Verif

namespace Spec

/-- A heap that a program can have. -/
def Reachable (h : Heap) : Prop := ∃ ops, h = Heap.empty.run ops

/-- The objects that a program appends to `o`, in order: a container does not accept
itself. -/
def appended (k : Kind) (o : Nat) : List Op → List Nat
  | [] => []
  | .append o' x :: r =>
    if o' = o ∧ ¬ (k = .container ∧ x = o) ∧ k ≠ .other then x :: appended k o r else appended k o r
  | _ :: r => appended k o r

/-- What a program appends to its own `i`-th list. -/
def extended (i : Nat) : List Op → List Nat
  | [] => []
  | .extend i' x :: r => if i' = i then x :: extended i r else extended i r
  | _ :: r => extended i r

end Spec

open Spec

/-- No list is shared: every list of an object is there, belongs to no other object and
is not one of the user's. -/
structure Heap.Inv (h : Heap) : Prop where
  own : ∀ (o : Nat) (b : HObj), h.objs[o]? = some b → b.own < h.lists.length
  mine : ∀ (i a : Nat), h.mine[i]? = some a → a < h.lists.length
  distinct : ∀ (o o' : Nat) (b b' : HObj), h.objs[o]? = some b → h.objs[o']? = some b' → b.own = b'.own → o = o'
  disjoint : ∀ (o i : Nat) (b : HObj) (a : Nat), h.objs[o]? = some b → h.mine[i]? = some a → b.own ≠ a
  mineDistinct : ∀ (i j a : Nat), h.mine[i]? = some a → h.mine[j]? = some a → i = j

theorem getElem?_snoc {α : Type} {l : List α} {x y : α} {i : Nat} (h : (l ++ [x])[i]? = some y) :
    l[i]? = some y ∨ (i = l.length ∧ y = x) := by
  by_cases hi : i < l.length
  · rw [List.getElem?_append_left hi] at h; exact Or.inl h
  · rw [List.getElem?_append_right (by omega)] at h
    have : i - l.length = 0 := by
      by_cases h0 : i - l.length = 0
      · exact h0
      · obtain ⟨k, hk⟩ : ∃ k, i - l.length = k + 1 := ⟨i - l.length - 1, by omega⟩
        rw [hk] at h; simp at h
    rw [this] at h
    simp at h
    exact Or.inr ⟨by omega, h.symm⟩

theorem Inv_set {h : Heap} (hi : h.Inv) (a : Nat) (l : List Nat) : Heap.Inv ⟨h.lists.set a l, h.objs, h.mine⟩ :=
  ⟨fun o b hb => by simpa using hi.own o b hb, fun i a ha => by simpa using hi.mine i a ha, hi.distinct, hi.disjoint,
    hi.mineDistinct⟩

theorem Inv_step {h : Heap} (hi : h.Inv) (op : Op) : (h.step op).1.Inv := by
  cases op with
  | newList xs =>
    simp only [Heap.step]
    refine ⟨fun o b hb => ?_, fun i a ha => ?_, hi.distinct, fun o i b a hb ha => ?_, fun i j a ha hj => ?_⟩
    · have := hi.own o b hb; simp only [List.length_append]; omega
    · rcases getElem?_snoc ha with h | ⟨_, rfl⟩
      · have := hi.mine i a h; simp only [List.length_append]; omega
      · simp
    · rcases getElem?_snoc ha with h | ⟨_, rfl⟩
      · exact hi.disjoint o i b a hb h
      · have := hi.own o b hb; omega
    · rcases getElem?_snoc ha with h | ⟨h1, h2⟩ <;> rcases getElem?_snoc hj with h' | ⟨h1', h2'⟩
      · exact hi.mineDistinct i j a h h'
      · have := hi.mine i a h; omega
      · have := hi.mine j a h'; omega
      · omega
  | extend i x =>
    simp only [Heap.step]
    split
    · exact Inv_set hi _ _
    · exact hi
  | create k src =>
    simp only [Heap.step]
    refine ⟨fun o b hb => ?_, fun i a ha => ?_, fun o o' b b' hb hb' he => ?_, fun o i b a hb ha => ?_, hi.mineDistinct⟩
    · rcases getElem?_snoc hb with h | ⟨_, rfl⟩
      · have := hi.own o b h; simp only [List.length_append]; omega
      · simp
    · have := hi.mine i a ha; simp only [List.length_append]; omega
    · rcases getElem?_snoc hb with h | ⟨h1, rfl⟩ <;> rcases getElem?_snoc hb' with h' | ⟨h1', rfl⟩
      · exact hi.distinct o o' b b' h h' he
      · have := hi.own o b h; simp only at he; omega
      · have := hi.own o' b' h'; simp only at he; omega
      · omega
    · rcases getElem?_snoc hb with h | ⟨_, rfl⟩
      · exact hi.disjoint o i b a h ha
      · have := hi.mine i a ha; simp only; omega
  | append o x =>
    simp only [Heap.step]
    split
    · exact hi
    · split
      · exact hi
      · split
        · exact hi
        · exact Inv_set hi _ _
      · exact Inv_set hi _ _

theorem Inv_run {h : Heap} (hi : h.Inv) (ops : List Op) : (h.run ops).Inv := by
  induction ops generalizing h with
  | nil => exact hi
  | cons op ops ih => exact ih (Inv_step hi op)

theorem Inv_reachable {h : Heap} (hr : Reachable h) : h.Inv := by
  obtain ⟨ops, rfl⟩ := hr
  refine Inv_run ⟨?_, ?_, ?_, ?_, ?_⟩ ops <;> simp [Heap.empty]

theorem listAt_set {h : Heap} {a b : Nat} {l : List Nat} (ha : a < h.lists.length) :
    Heap.listAt ⟨h.lists.set a l, h.objs, h.mine⟩ b = if a = b then l else h.listAt b := by
  simp only [Heap.listAt, List.getElem?_set]
  split
  · simp [ha]
  · rfl

theorem listAt_snoc {h : Heap} {a : Nat} {l : List Nat} {os : List HObj} {m : List Nat} (ha : a < h.lists.length) :
    Heap.listAt ⟨h.lists ++ [l], os, m⟩ a = h.listAt a := by
  simp only [Heap.listAt, List.getElem?_append_left ha]

/-- One step. -/
theorem step_features {h : Heap} (hi : h.Inv) (op : Op) {o : Nat} {b : HObj} (hb : h.objs[o]? = some b) :
    (h.step op).1.objs[o]? = some b ∧
      (h.step op).1.listAt b.own = h.listAt b.own ++ appended b.kind o [op] := by
  have hown := hi.own o b hb
  have hlt : o < h.objs.length := by
    by_cases hlt : o < h.objs.length
    · exact hlt
    · rw [List.getElem?_eq_none (by omega)] at hb; cases hb
  cases op with
  | newList xs => simp only [Heap.step, appended, List.append_nil]; exact ⟨hb, listAt_snoc hown⟩
  | extend i x =>
    simp only [Heap.step, appended, List.append_nil]
    split
    · rename_i a ha
      refine ⟨hb, ?_⟩
      rw [listAt_set (hi.mine i a ha), if_neg (fun e => hi.disjoint o i b a hb ha e.symm)]
    · exact ⟨hb, rfl⟩
  | create k src =>
    simp only [Heap.step, appended, List.append_nil]
    exact ⟨by rw [List.getElem?_append_left hlt]; exact hb, listAt_snoc hown⟩
  | append o' x =>
    have hset : ∀ b', h.objs[o']? = some b' → Heap.listAt
        ⟨h.lists.set b'.own (h.listAt b'.own ++ [x]), h.objs, h.mine⟩ b.own =
        h.listAt b.own ++ if o' = o then [x] else [] := by
      intro b' hb'
      rw [listAt_set (hi.own o' b' hb')]
      by_cases he : b'.own = b.own
      · have := hi.distinct o' o b' b hb' hb he
        subst this
        simp [he]
      · have hne : o' ≠ o := by
          rintro rfl
          rw [hb] at hb'; cases hb'; exact he rfl
        simp [he, hne]
    simp only [Heap.step, appended]
    split
    · rename_i hn
      refine ⟨hb, ?_⟩
      have : o' ≠ o := by rintro rfl; rw [hb] at hn; cases hn
      simp [this]
    · rename_i b' hb'
      have hkind : o' = o → b' = b := by rintro rfl; rw [hb] at hb'; cases hb'; rfl
      split
      · rename_i hk
        refine ⟨hb, ?_⟩
        by_cases he : o' = o
        · have := hkind he; subst this; simp [hk]
        · simp [he]
      · rename_i hk
        by_cases hx : x = o'
        · rw [if_pos hx]
          refine ⟨hb, ?_⟩
          by_cases he : o' = o
          · have := hkind he; subst this; subst he; simp [hk, hx]
          · simp [he]
        · rw [if_neg hx]
          refine ⟨hb, ?_⟩
          rw [hset b' hb']
          by_cases he : o' = o
          · have := hkind he; subst this; subst he; simp [hk, hx]
          · simp [he]
      · rename_i hk1 hk2
        refine ⟨hb, ?_⟩
        rw [hset b' hb']
        by_cases he : o' = o
        · have := hkind he; subst this
          have h1 : b'.kind ≠ .other := hk1
          have h2 : b'.kind ≠ .container := hk2
          simp [he, h1, h2]
        · simp [he]

theorem appended_cons (k : Kind) (o : Nat) (op : Op) (ops : List Op) :
    appended k o (op :: ops) = appended k o [op] ++ appended k o ops := by
  cases op with
  | append o' x =>
    simp only [appended]
    split <;> simp
  | _ => simp [appended]

/-- **C38.** Whatever a program does — create objects, from the same or other lists,
change its own lists, append to this and other objects — the features of an object
are those it had, followed by those appended to it, in order; an attempt to append a
container to itself adds nothing. -/
theorem C38_history (h : Heap) (hr : Reachable h) (o : Nat) (k : Kind) (fs : List Nat)
    (hk : h.kindOf o = some k) (hf : h.features o = some fs) (ops : List Op) :
    (h.run ops).features o = some (fs ++ appended k o ops) ∧ (h.run ops).kindOf o = some k := by
  have hi := Inv_reachable hr
  clear hr
  simp only [Heap.kindOf, Option.map_eq_some_iff] at hk
  obtain ⟨b, hb, rfl⟩ := hk
  simp only [Heap.features, hb, Option.map_some, Option.some.injEq] at hf
  subst hf
  have key : ∀ (ops : List Op) (h : Heap), h.Inv → h.objs[o]? = some b →
      (h.run ops).objs[o]? = some b ∧ (h.run ops).listAt b.own = h.listAt b.own ++ appended b.kind o ops := by
    intro ops
    induction ops with
    | nil => intro h _ hb; exact ⟨hb, by simp [Heap.run, appended]⟩
    | cons op ops ih =>
      intro h hi hb
      obtain ⟨h1, h2⟩ := step_features hi op hb
      obtain ⟨h3, h4⟩ := ih (h.step op).1 (Inv_step hi op) h1
      refine ⟨h3, ?_⟩
      rw [appended_cons, ← List.append_assoc, ← h2]
      exact h4
  obtain ⟨h1, h2⟩ := key ops h hi hb
  simp [Heap.features, Heap.kindOf, h1, h2]

/-- **C38.** A new object has the features of the list given to the constructor. -/
theorem C38_create (h : Heap) (k : Kind) (src : Src) :
    ((h.step (.create k src)).1).features h.objs.length = some (match src with
        | .none => []
        | .mine i => (h.userList i).getD []
        | .of o => (h.features o).getD []) ∧
      ((h.step (.create k src)).1).kindOf h.objs.length = some k := by
  constructor
  · simp only [Heap.step, Heap.features, Heap.newOwn]
    simp only [List.getElem?_append_right (Nat.le_refl _), Nat.sub_self, List.getElem?_cons_zero, Option.map_some, Heap.listAt,
      Option.getD_some]
    congr 1
    cases src with
    | none => rfl
    | mine i =>
      simp only [Heap.value, Heap.userList]
      cases h.mine[i]? <;> rfl
    | of o =>
      simp only [Heap.value]
      cases h.objs[o]? <;> rfl
  · simp [Heap.step, Heap.kindOf]

/-- **C38.** … and a list that the user makes has the members it was made with. -/
theorem C38_list (h : Heap) (xs : List Nat) : ((h.step (.newList xs)).1).userList h.mine.length = some xs := by
  simp [Heap.step, Heap.userList, Heap.listAt]

/-- **C38.** Appending a container to itself raises `ValueError` and changes nothing. -/
theorem C38_self (h : Heap) (o : Nat) (hk : h.kindOf o = some .container) :
    h.step (.append o o) = (h, .valueError) := by
  simp only [Heap.kindOf, Option.map_eq_some_iff] at hk
  obtain ⟨b, hb, hb'⟩ := hk
  simp [Heap.step, hb, hb']

/-- **C38.** That is the only `ValueError`. -/
theorem C38_valueError (h : Heap) (op : Op) (he : (h.step op).2 = .valueError) :
    ∃ o, op = .append o o ∧ h.kindOf o = some .container := by
  cases op with
  | newList xs => cases he
  | extend i x => simp only [Heap.step] at he; split at he <;> cases he
  | create k src => cases he
  | append o x =>
    simp only [Heap.step] at he
    split at he
    · cases he
    · rename_i b hb
      split at he
      · cases he
      · rename_i hk
        by_cases hx : x = o
        · subst hx; exact ⟨_, rfl, by simp [Heap.kindOf, hb, hk]⟩
        · rw [if_neg hx] at he; cases he
      · cases he

/-- **C38.** An operation that raises an exception changes nothing. -/
theorem C38_raise (h : Heap) (op : Op) (he : (h.step op).2 ≠ .done) : (h.step op).1 = h := by
  cases op with
  | newList xs => exact absurd rfl he
  | extend i x =>
    simp only [Heap.step] at he ⊢
    split at he
    · exact absurd rfl he
    · rename_i hn; simp [hn]
  | create k src => exact absurd rfl he
  | append o x =>
    simp only [Heap.step] at he ⊢
    split at he
    · rename_i hn; simp [hn]
    · rename_i b hb
      split at he
      · rename_i hk; simp [hk]
      · rename_i hk
        by_cases hx : x = o
        · simp [hk, hx]
        · rw [if_neg hx] at he; exact absurd rfl he
      · exact absurd rfl he

/-- **C38.** Appending does not change the list that was given to the constructor. -/
theorem C38_source (h : Heap) (hr : Reachable h) (i : Nat) (l : List Nat) (hl : h.userList i = some l) (ops : List Op) :
    (h.run ops).userList i = some (l ++ extended i ops) := by
  have hi := Inv_reachable hr
  clear hr
  simp only [Heap.userList, Option.map_eq_some_iff] at hl
  obtain ⟨a, ha, rfl⟩ := hl
  have step : ∀ (op : Op) (h : Heap), h.Inv → h.mine[i]? = some a →
      (h.step op).1.mine[i]? = some a ∧ (h.step op).1.listAt a = h.listAt a ++ extended i [op] := by
    intro op h hi ha
    have hlt := hi.mine i a ha
    have hil : i < h.mine.length := by
      by_cases hlt : i < h.mine.length
      · exact hlt
      · rw [List.getElem?_eq_none (by omega)] at ha; cases ha
    cases op with
    | newList xs =>
      simp only [Heap.step, extended, List.append_nil]
      exact ⟨by rw [List.getElem?_append_left hil]; exact ha, listAt_snoc hlt⟩
    | create k src => simp only [Heap.step, extended, List.append_nil]; exact ⟨ha, listAt_snoc hlt⟩
    | extend j x =>
      simp only [Heap.step, extended]
      split
      · rename_i a' ha'
        refine ⟨ha, ?_⟩
        rw [listAt_set (hi.mine j a' ha')]
        by_cases he : a' = a
        · subst he
          have := hi.mineDistinct j i a' ha' ha
          simp [this]
        · have : j ≠ i := by rintro rfl; rw [ha] at ha'; cases ha'; exact he rfl
          simp [he, this]
      · rename_i hn
        have : j ≠ i := by rintro rfl; rw [ha] at hn; cases hn
        simp [this, ha]
    | append o x =>
      have hset : ∀ b, h.objs[o]? = some b → Heap.listAt
          ⟨h.lists.set b.own (h.listAt b.own ++ [x]), h.objs, h.mine⟩ a = h.listAt a := by
        intro b hb
        rw [listAt_set (hi.own o b hb), if_neg (hi.disjoint o i b a hb ha)]
      simp only [Heap.step, extended, List.append_nil]
      split
      · exact ⟨ha, rfl⟩
      · rename_i b hb
        split
        · exact ⟨ha, rfl⟩
        · split
          · exact ⟨ha, rfl⟩
          · exact ⟨ha, hset b hb⟩
        · exact ⟨ha, hset b hb⟩
  have hcons : ∀ op ops, extended i (op :: ops) = extended i [op] ++ extended i ops := by
    intro op ops
    cases op with
    | extend j x => simp only [extended]; split <;> simp
    | _ => simp [extended]
  have key : ∀ (ops : List Op) (h : Heap), h.Inv → h.mine[i]? = some a →
      (h.run ops).mine[i]? = some a ∧ (h.run ops).listAt a = h.listAt a ++ extended i ops := by
    intro ops
    induction ops with
    | nil => intro h _ ha; exact ⟨ha, by simp [Heap.run, extended]⟩
    | cons op ops ih =>
      intro h hi ha
      obtain ⟨h1, h2⟩ := step op h hi ha
      obtain ⟨h3, h4⟩ := ih (h.step op).1 (Inv_step hi op) h1
      refine ⟨h3, ?_⟩
      rw [hcons, ← List.append_assoc, ← h2]
      exact h4
  obtain ⟨h1, h2⟩ := key ops h hi ha
  simp [Heap.userList, h1, h2]

/-- **C38.** Two folders made from the same list, which is changed afterwards; one is
appended to itself in vain and to the other; a placemark has no `append`. -/
def sharedRun : List Op := [.create .other .none, .create .other .none, .newList [0, 1], .create .container (.mine 0),
  .create .container (.mine 0), .extend 0 0, .append 2 2, .append 2 3, .append 3 0, .append 0 1]

example : (Heap.empty.run sharedRun).features 2 = some [0, 1, 3] ∧ (Heap.empty.run sharedRun).features 3 = some [0, 1, 0] ∧
    (Heap.empty.run sharedRun).userList 0 = some [0, 1, 0] ∧ Reachable (Heap.empty.run sharedRun) ∧
    (Heap.empty.run sharedRun).kindOf 2 = some .container ∧
    appended .container 2 [.append 2 2, .append 2 3, .append 3 0] = [3] :=
  ⟨by decide, by decide, by decide, ⟨_, rfl⟩, by decide, by decide⟩

/-- **C38**, disagreement: `KML.append` accepts the object itself. -/
theorem C38_kml_self (h : Heap) (o : Nat) (fs : List Nat) (hr : Reachable h) (hk : h.kindOf o = some .kml)
    (hf : h.features o = some fs) :
    (h.step (.append o o)).2 = .done ∧ (h.step (.append o o)).1.features o = some (fs ++ [o]) := by
  have := (C38_history h hr o .kml fs hk hf [.append o o]).1
  refine ⟨?_, by simpa [Heap.run, appended] using this⟩
  simp only [Heap.kindOf, Option.map_eq_some_iff] at hk
  obtain ⟨b, hb, hb'⟩ := hk
  simp [Heap.step, hb, hb']

example : ∃ h o, Reachable h ∧ h.kindOf o = some .kml ∧ h.features o = some [] :=
  ⟨Heap.empty.run [.create .kml .none], 0, ⟨_, rfl⟩, by decide, by decide⟩

/-- **C38**, disagreement: two containers can be appended to each other, after which
neither is a finite tree. -/
theorem C38_cycle : ∃ h, Reachable h ∧ h.kindOf 0 = some .container ∧ h.kindOf 1 = some .container ∧
    h.features 0 = some [1] ∧ h.features 1 = some [0] :=
  ⟨Heap.empty.run [.create .container .none, .create .container .none, .append 0 1, .append 1 0],
    ⟨_, rfl⟩, by decide, by decide, by decide, by decide⟩

end Verif
