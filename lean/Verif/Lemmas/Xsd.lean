import Verif.Spec.Valid

/-!
# Content models

A check, by evaluation, that what the registered attributes of a class write fits the
content model of a type, and its soundness.
-/

set_option linter.unusedSectionVars false
set_option linter.unusedSimpArgs false

namespace Verif

open Spec

/-! ## Names -/

theorem sameStr_iff {s t : Str} : sameStr s t = true ↔ s = t := by
  induction s generalizing t with
  | nil => cases t <;> simp [sameStr]
  | cons a s ih =>
    cases t with
    | nil => simp [sameStr]
    | cons b t =>
      simp only [sameStr, Bool.and_eq_true, ih, List.cons.injEq]
      constructor
      · rintro ⟨h, rfl⟩
        exact ⟨Char.toNat_inj.mp (Nat.eq_of_beq_eq_true h), rfl⟩
      · rintro ⟨rfl, rfl⟩
        exact ⟨Nat.beq_refl _, rfl⟩

theorem QN.same_iff {a b : QN} : a.same b = true ↔ a = b := by
  obtain ⟨x, s⟩ := a
  obtain ⟨y, t⟩ := b
  cases x <;> cases y <;> simp [QN.same, sameStr_iff]

/-- Equality of typed names, computed. -/
def sameTyped (a b : Typed) : Bool :=
  a.1.same b.1 && match a.2, b.2 with
    | some x, some y => x.same y
    | none, none => true
    | _, _ => false

theorem sameTyped_iff {a b : Typed} : sameTyped a b = true ↔ a = b := by
  obtain ⟨a, x⟩ := a
  obtain ⟨b, y⟩ := b
  cases x <;> cases y <;> simp [sameTyped, QN.same_iff]

/-- Membership, computed. -/
def hasTyped (fs : List Typed) (e : Typed) : Bool := fs.any (sameTyped e)

theorem hasTyped_iff {fs : List Typed} {e : Typed} : hasTyped fs e = true ↔ e ∈ fs := by
  simp only [hasTyped, List.any_eq_true, sameTyped_iff]
  exact ⟨fun ⟨x, hx, h⟩ => h ▸ hx, fun h => ⟨e, h, rfl⟩⟩

/-- Inclusion, computed. -/
def within (es fs : List Typed) : Bool := es.all (hasTyped fs)

theorem within_iff {es fs : List Typed} : within es fs = true ↔ ∀ e ∈ es, e ∈ fs := by
  simp only [within, List.all_eq_true, hasTyped_iff]

/-! ## Shapes -/

/-- What is known of a block of elements. -/
inductive Shape where
  /-- at most one element -/
  | one (es : List Typed)
  /-- one element -/
  | sure (es : List Typed)
  /-- any number of elements -/
  | many (es : List Typed)

/-- The block has the shape. -/
def Shape.Fits : Shape → List Typed → Prop
  | .one es, qs => (∀ q ∈ qs, q ∈ es) ∧ qs.length ≤ 1
  | .sure es, qs => (∀ q ∈ qs, q ∈ es) ∧ qs.length = 1
  | .many es, qs => ∀ q ∈ qs, q ∈ es

/-- The particles after those that are needed for one of the elements. -/
def cover : List Typed → List Part → Option (List Part)
  | [], ps => some ps
  | _ :: _, [] => none
  | e :: es, p :: ps =>
    if Nat.beq p.min 0 then cover ((e :: es).filter fun e => !hasTyped p.elems e) ps else none

/-- Blocks of the given shapes, one after the other, are accepted. -/
def fits : Nat → List Part → List Shape → Bool
  | 0, _, _ => false
  | _ + 1, ps, [] => ps.all fun p => Nat.beq p.min 0
  | _ + 1, [], _ :: _ => false
  | n + 1, p :: ps, .many es :: ss =>
    if within es p.elems && p.unb then fits n (p :: ps) ss
    else Nat.beq p.min 0 && fits n ps (.many es :: ss)
  | n + 1, p :: ps, .sure es :: ss =>
    if within es p.elems then (if p.unb then fits n (p :: ps) ss else Nat.ble p.min 1 && fits n ps ss)
    else Nat.beq p.min 0 && fits n ps (.sure es :: ss)
  | n + 1, p :: ps, .one es :: ss =>
    if within es p.elems && p.unb then fits n (p :: ps) ss
    else match cover es (p :: ps) with
      | none => false
      | some qs => fits n qs ss

theorem accepts_skip {p : Part} {ps : List Part} {us : List Typed} (hm : Nat.beq p.min 0 = true)
    (h : Accepts ps us) : Accepts (p :: ps) us := by
  have hm := Nat.eq_of_beq_eq_true hm
  have := Accepts.cons (p := p) (ts := []) (by simp) (by simp [hm]) (Or.inr (by simp)) h
  simpa using this

theorem accepts_add {p : Part} {ps : List Part} {ts us : List Typed} (hu : p.unb = true)
    (hin : ∀ t ∈ ts, t ∈ p.elems) (h : Accepts (p :: ps) us) : Accepts (p :: ps) (ts ++ us) := by
  cases h with
  | cons hin' hmin hmax h =>
    rename_i ts' us'
    rw [← List.append_assoc]
    refine .cons (fun t ht => ?_) (by simp; omega) (Or.inl hu) h
    rcases List.mem_append.mp ht with ht | ht
    · exact hin t ht
    · exact hin' t ht

theorem accepts_empty {ps : List Part} (h : (ps.all fun p => Nat.beq p.min 0) = true) : Accepts ps [] := by
  induction ps with
  | nil => exact .nil
  | cons p ps ih =>
    simp only [List.all_cons, Bool.and_eq_true] at h
    exact accepts_skip h.1 (ih h.2)

theorem cover_sound {es : List Typed} {ps rest : List Part} (h : cover es ps = some rest) {us : List Typed}
    (hu : Accepts rest us) : Accepts ps us ∧ ∀ q ∈ es, Accepts ps (q :: us) := by
  induction ps generalizing es with
  | nil => cases es <;> simp_all [cover]
  | cons p ps ih =>
    cases es with
    | nil =>
      simp only [cover, Option.some.injEq] at h
      subst h
      exact ⟨hu, by simp⟩
    | cons e es =>
      simp only [cover] at h
      by_cases hm : Nat.beq p.min 0 = true
      · rw [if_pos hm] at h
        obtain ⟨h1, h2⟩ := ih h
        refine ⟨accepts_skip hm h1, fun q hq => ?_⟩
        by_cases hp : q ∈ p.elems
        · have := Accepts.cons (p := p) (ts := [q]) (by simpa using hp)
            (by rw [Nat.eq_of_beq_eq_true hm]; exact Nat.zero_le _) (Or.inr (by simp)) h1
          simpa using this
        · refine accepts_skip hm (h2 q (List.mem_filter.mpr ⟨hq, ?_⟩))
          simp only [Bool.not_eq_true', ← Bool.not_eq_true, hasTyped_iff]
          exact hp
      · rw [if_neg hm] at h; cases h

theorem fits_sound : ∀ {n : Nat} {ps : List Part} {ss : List Shape}, fits n ps ss = true →
    ∀ {qss : List (List Typed)}, All2 Shape.Fits ss qss → Accepts ps qss.flatten
  | 0, _, _, h, _, _ => by simp [fits] at h
  | n + 1, ps, [], h, qss, hq => by
    cases hq
    simp only [fits] at h
    exact accepts_empty h
  | n + 1, [], _ :: _, h, _, _ => by simp [fits] at h
  | n + 1, p :: ps, .many es :: ss, h, _, .cons (b := qs) (m := qss) hf hq => by
    simp only [fits] at h
    by_cases hc : (within es p.elems && p.unb) = true
    · rw [if_pos hc] at h
      simp only [Bool.and_eq_true, within_iff] at hc
      rw [List.flatten_cons]
      exact accepts_add hc.2 (fun t ht => hc.1 t (hf t ht)) (fits_sound h hq)
    · rw [if_neg hc, Bool.and_eq_true] at h
      exact accepts_skip h.1 (fits_sound h.2 (.cons hf hq))
  | n + 1, p :: ps, .sure es :: ss, h, _, .cons (b := qs) (m := qss) hf hq => by
    simp only [fits] at h
    by_cases hc : within es p.elems = true
    · rw [if_pos hc] at h
      rw [within_iff] at hc
      rw [List.flatten_cons]
      cases hu : p.unb with
      | true =>
        rw [hu, if_pos rfl] at h
        exact accepts_add hu (fun t ht => hc t (hf.1 t ht)) (fits_sound h hq)
      | false =>
        rw [hu] at h
        simp only [Bool.false_eq_true, if_false, Bool.and_eq_true] at h
        exact .cons (fun t ht => hc t (hf.1 t ht)) (by rw [hf.2]; exact Nat.le_of_ble_eq_true h.1)
          (Or.inr (by rw [hf.2]; exact Nat.le_refl _)) (fits_sound h.2 hq)
    · rw [if_neg hc, Bool.and_eq_true] at h
      exact accepts_skip h.1 (fits_sound h.2 (.cons hf hq))
  | n + 1, p :: ps, .one es :: ss, h, _, .cons (b := qs) (m := qss) hf hq => by
    simp only [fits] at h
    by_cases hc : (within es p.elems && p.unb) = true
    · rw [if_pos hc] at h
      simp only [Bool.and_eq_true, within_iff] at hc
      rw [List.flatten_cons]
      exact accepts_add hc.2 (fun t ht => hc.1 t (hf.1 t ht)) (fits_sound h hq)
    · rw [if_neg hc] at h
      cases hv : cover es (p :: ps) with
      | none => rw [hv] at h; cases h
      | some rest =>
        rw [hv] at h
        obtain ⟨h1, h2⟩ := cover_sound hv (fits_sound h hq)
        rw [List.flatten_cons]
        match qs, hf with
        | [], _ => exact h1
        | [q], hf => exact h2 q (hf.1 q (by simp))
        | _ :: _ :: _, hf => exact absurd hf.2 (by simp)

end Verif
