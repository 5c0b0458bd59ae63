/-!
# Lists related element by element
-/

namespace Verif.Spec

/-- The two lists have the same length and corresponding elements are related. -/
inductive All2 {α β : Type} (R : α → β → Prop) : List α → List β → Prop where
  | nil : All2 R [] []
  | cons {a b l m} : R a b → All2 R l m → All2 R (a :: l) (b :: m)

namespace All2
variable {α β γ δ : Type} {R : α → β → Prop}

theorem length {l : List α} {m : List β} (h : All2 R l m) : l.length = m.length := by
  induction h with
  | nil => rfl
  | cons _ _ ih => simp [ih]

theorem imp {S : α → β → Prop} {l : List α} {m : List β} (h : All2 R l m)
    (hs : ∀ a ∈ l, ∀ b ∈ m, R a b → S a b) : All2 S l m := by
  induction h with
  | nil => exact .nil
  | cons h1 _ ih =>
    exact .cons (hs _ (by simp) _ (by simp) h1) (ih fun a ha b hb => hs a (by simp [ha]) b (by simp [hb]))

theorem refl {R : α → α → Prop} {l : List α} (h : ∀ a ∈ l, R a a) : All2 R l l := by
  induction l with
  | nil => exact .nil
  | cons a l ih => exact .cons (h a (by simp)) (ih fun b hb => h b (by simp [hb]))

theorem append {l l' : List α} {m m' : List β} (h : All2 R l m) (h' : All2 R l' m') :
    All2 R (l ++ l') (m ++ m') := by
  induction h with
  | nil => exact h'
  | cons h1 _ ih => exact .cons h1 ih

theorem map_left {f : γ → α} {l : List γ} {m : List β} :
    All2 R (l.map f) m ↔ All2 (fun c b => R (f c) b) l m := by
  induction l generalizing m with
  | nil => constructor <;> intro h <;> cases h <;> exact .nil
  | cons c l ih =>
    constructor <;> intro h <;> cases h with
    | cons h1 h2 => first | exact .cons h1 (ih.mp h2) | exact .cons h1 (ih.mpr h2)

theorem map_right {f : γ → β} {l : List α} {m : List γ} :
    All2 R l (m.map f) ↔ All2 (fun a c => R a (f c)) l m := by
  induction m generalizing l with
  | nil => constructor <;> intro h <;> cases h <;> exact .nil
  | cons c m ih =>
    constructor <;> intro h <;> cases h with
    | cons h1 h2 => first | exact .cons h1 (ih.mp h2) | exact .cons h1 (ih.mpr h2)

theorem filter {p : α → Bool} {q : β → Bool} {l : List α} {m : List β} (h : All2 R l m)
    (hpq : ∀ a b, R a b → p a = q b) : All2 R (l.filter p) (m.filter q) := by
  induction h with
  | nil => exact .nil
  | @cons a b l m h1 _ ih =>
    simp only [List.filter_cons, hpq a b h1]
    split
    · exact .cons h1 ih
    · exact ih

theorem find? {p : α → Bool} {q : β → Bool} {l : List α} {m : List β} (h : All2 R l m)
    (hpq : ∀ a b, R a b → p a = q b) :
    (l.find? p = none ∧ m.find? q = none) ∨
    ∃ a b, a ∈ l ∧ b ∈ m ∧ R a b ∧ l.find? p = some a ∧ m.find? q = some b := by
  induction h with
  | nil => exact Or.inl ⟨rfl, rfl⟩
  | @cons a b l m h1 _ ih =>
    simp only [List.find?_cons, hpq a b h1]
    split
    · exact Or.inr ⟨a, b, by simp, by simp, h1, rfl, rfl⟩
    · rcases ih with h | ⟨a', b', ha, hb, hr, e1, e2⟩
      · exact Or.inl h
      · exact Or.inr ⟨a', b', by simp [ha], by simp [hb], hr, e1, e2⟩

theorem eq {l m : List α} (h : All2 (fun a b => a = b) l m) : l = m := by
  induction h with
  | nil => rfl
  | cons h1 _ ih => rw [h1, ih]

theorem symm {l : List α} {m : List β} (h : All2 R l m) : All2 (fun b a => R a b) m l := by
  induction h with
  | nil => exact .nil
  | cons h1 _ ih => exact .cons h1 ih

theorem mem_left {l : List α} {m : List β} (h : All2 R l m) {a : α} (ha : a ∈ l) :
    ∃ b ∈ m, R a b := by
  induction h with
  | nil => cases ha
  | cons h1 _ ih =>
    rcases List.mem_cons.mp ha with rfl | ha
    · exact ⟨_, by simp, h1⟩
    · obtain ⟨b, hb, hr⟩ := ih ha; exact ⟨b, by simp [hb], hr⟩

theorem mem_right {l : List α} {m : List β} (h : All2 R l m) {b : β} (hb : b ∈ m) :
    ∃ a ∈ l, R a b := by
  obtain ⟨a, ha, hr⟩ := h.symm.mem_left hb; exact ⟨a, ha, hr⟩

theorem append_left {l l' : List α} {m : List β} (h : All2 R (l ++ l') m) :
    ∃ m1 m2, m = m1 ++ m2 ∧ All2 R l m1 ∧ All2 R l' m2 := by
  induction l generalizing m with
  | nil => exact ⟨[], m, rfl, .nil, h⟩
  | cons a l ih =>
    cases h with
    | cons h1 h2 =>
      obtain ⟨m1, m2, rfl, h3, h4⟩ := ih h2
      exact ⟨_ :: m1, m2, rfl, .cons h1 h3, h4⟩

end All2
end Verif.Spec
