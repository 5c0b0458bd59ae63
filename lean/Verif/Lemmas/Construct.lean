import Verif.Base
import Verif.Lemmas.Py

/-!
# Lemmas about constructors
-/

set_option linter.unusedSectionVars false
set_option linter.unusedSimpArgs false

namespace Verif

variable {C F : Type} [DecidableEq C] [PyExt F]

theorem fillSlots_keys {L : Lib C} {kw : List (Str × Val C F)} {slots : List (Str × Norm)}
    {r : List (Str × Val C F)} (h : fillSlots L kw slots = .ok r) :
    r.map Prod.fst = slots.map Prod.fst := by
  induction slots generalizing r with
  | nil => simp [fillSlots] at h; subst h; rfl
  | cons p ps ih =>
    obtain ⟨a, n⟩ := p
    simp only [fillSlots] at h
    split at h
    · cases h
    · split at h
      · cases h
      · rename_i hvs
        simp at h; subst h
        simp [ih hvs]

theorem fillSlots_get {L : Lib C} {kw : List (Str × Val C F)} {slots : List (Str × Norm)}
    {r : List (Str × Val C F)} (h : fillSlots L kw slots = .ok r)
    (hn : (slots.map Prod.fst).Nodup) {a : Str} {n : Norm} (ha : (a, n) ∈ slots) :
    ∃ v, normalise L n (kwGet a kw) = .ok v ∧ dget a r = some v := by
  induction slots generalizing r with
  | nil => simp at ha
  | cons p ps ih =>
    obtain ⟨b, m⟩ := p
    simp only [fillSlots] at h
    simp only [List.map_cons, List.nodup_cons] at hn
    split at h
    · cases h
    · rename_i v hv
      split at h
      · cases h
      · rename_i vs hvs
        simp at h; subst h
        rcases List.mem_cons.mp ha with ha | ha
        · simp only [Prod.mk.injEq] at ha
          obtain ⟨rfl, rfl⟩ := ha
          exact ⟨v, hv, by simp [dget]⟩
        · obtain ⟨w, hw, hg⟩ := ih hvs hn.2 ha
          refine ⟨w, hw, ?_⟩
          have : b ≠ a := by
            rintro rfl; exact hn.1 (List.mem_map_of_mem (f := Prod.fst) ha)
          simp [dget, this, hg]

theorem specialInit_keys {L : Lib C} {s : Special} {kw sp : List (Str × Val C F)}
    (h : specialInit L s kw = .ok sp) : ∀ a ∈ sp.map Prod.fst, a ∈ specialArgs s := by
  cases s <;> simp only [specialInit] at h
  · simp at h; subst h; simp
  · split at h
    · cases h
    · split at h
      · cases h
      · simp at h; subst h; simp
    · cases h
  · split at h
    · cases h
    · simp at h; subst h; simp [specialArgs]
  · split at h
    · cases h
    · simp at h; subst h; simp
  · simp at h; subst h; simp

/-- What a successful constructor call returns. -/
theorem construct_ok {L : Lib C} {c : C} {ns : Str} {nss : NsMap} {kw : List (Str × Val C F)}
    {v : Val C F} (h : construct L c ns nss kw = .ok v) :
    ∃ ex sp sl, ex = kw.filter (fun p => decide (p.1 ∉ specialArgs (L.info c).special ++
        (L.info c).slots.map Prod.fst)) ∧
      specialInit L (L.info c).special kw = .ok sp ∧
      fillSlots L kw (L.info c).slots = .ok sl ∧
      v = .obj c ns (mergeNs nss) (ex ++ sp ++ sl) := by
  unfold construct at h
  simp only at h
  split at h
  · cases h
  · split at h
    · cases h
    · rename_i sp hsp
      split at h
      · cases h
      · rename_i sl hsl
        simp at h
        exact ⟨_, sp, sl, rfl, hsp, hsl, by simp [h]⟩

/-- A constructor argument is stored normalised. -/
theorem construct_slot {L : Lib C} {c : C} {ns : Str} {nss : NsMap} {kw : List (Str × Val C F)}
    {v : Val C F} (h : construct L c ns nss kw = .ok v)
    (hn : (specialArgs (L.info c).special ++ (L.info c).slots.map Prod.fst).Nodup)
    {a : Str} {n : Norm} (ha : (a, n) ∈ (L.info c).slots) :
    ∃ attrs w, v = .obj c ns (mergeNs nss) attrs ∧ normalise L n (kwGet a kw) = .ok w ∧
      dget a attrs = some w := by
  obtain ⟨ex, sp, sl, hex, hsp, hsl, rfl⟩ := construct_ok h
  rw [List.nodup_append] at hn
  obtain ⟨w, hw, hg⟩ := fillSlots_get hsl hn.2.1 ha
  refine ⟨_, w, rfl, hw, ?_⟩
  have ha' : a ∈ (L.info c).slots.map Prod.fst := List.mem_map_of_mem (f := Prod.fst) ha
  have h1 : dget a ex = none := by
    rw [dget_eq_none, hex]
    intro hm
    obtain ⟨p, hp, rfl⟩ := List.mem_map.mp hm
    have := (List.mem_filter.mp hp).2
    simp only [decide_eq_true_eq, List.mem_append, not_or] at this
    exact this.2 ha'
  have h2 : dget a sp = none := by
    rw [dget_eq_none]
    intro hm
    exact hn.2.2 _ (specialInit_keys hsp a hm) _ ha' rfl
  rw [dget_append, dget_append, h1, h2, hg]; rfl

end Verif
