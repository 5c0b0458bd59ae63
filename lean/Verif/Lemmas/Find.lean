import Verif.Spec.Find

set_option linter.unusedSectionVars false
set_option linter.unusedSimpArgs false

/-!
# Lemmas about searching
-/

namespace Verif

open Spec

variable {F : Type}

theorem Val.depth_pos (v : Val Cls F) : 1 ≤ v.depth := by
  cases v <;> simp [Val.depth]

theorem Node.depth_pos (n : Node F) : 1 ≤ n.depth := by
  cases n <;> simp [Node.depth, Val.depth_pos]

theorem depthList_mem {l : List (Val Cls F)} {v : Val Cls F} (h : v ∈ l) :
    v.depth ≤ Val.depthList l := by
  induction l with
  | nil => cases h
  | cons x r ih =>
    simp only [Val.depthList]
    rcases List.mem_cons.mp h with rfl | h
    · exact Nat.le_max_left _ _
    · exact Nat.le_trans (ih h) (Nat.le_max_right _ _)

theorem depthAttrs_mem {l : List (Str × Val Cls F)} {a : Str} {v : Val Cls F}
    (h : (a, v) ∈ l) : v.depth ≤ Val.depthAttrs l := by
  induction l with
  | nil => cases h
  | cons x r ih =>
    obtain ⟨b, w⟩ := x
    simp only [Val.depthAttrs]
    rcases List.mem_cons.mp h with h | h
    · cases h; exact Nat.le_max_left _ _
    · exact Nat.le_trans (ih h) (Nat.le_max_right _ _)

theorem depthAttrs_pos (l : List (Str × Val Cls F)) : 1 ≤ Val.depthAttrs l := by
  induction l with
  | nil => simp [Val.depthAttrs]
  | cons x r ih =>
    obtain ⟨b, w⟩ := x
    simp only [Val.depthAttrs]
    exact Nat.le_trans ih (Nat.le_max_right _ _)

theorem spread_depth {v : Val Cls F} {x : Node F} (h : x ∈ spread v) : x.depth ≤ v.depth := by
  cases v <;> simp only [spread, List.mem_map, List.mem_singleton, List.not_mem_nil] at h
  case list l =>
    obtain ⟨w, hw, rfl⟩ := h
    simp only [Node.depth, Val.depth]
    exact Nat.le_succ_of_le (depthList_mem hw)
  case floats l =>
    obtain ⟨w, hw, rfl⟩ := h
    simp [Node.depth, Val.depth]
  case coords l =>
    obtain ⟨w, hw, rfl⟩ := h
    simp [Node.depth, Val.depth]
  case whens l =>
    obtain ⟨w, hw, rfl⟩ := h
    cases w <;> simp [Node.depth, Val.depth]
  case items l =>
    obtain ⟨w, hw, rfl⟩ := h
    simp [Node.depth, Val.depth]
  all_goals (subst h; exact Nat.le_refl _)

theorem isPublic_iff (a : Str) : isPublic a = true ↔ a.head? ≠ some '_' := by
  unfold isPublic
  split
  · simp
  · rename_i h
    cases a with
    | nil => simp
    | cons c r =>
      simp only [List.head?_cons, ne_eq, Option.some.injEq, true_iff]
      intro hc
      subst hc
      exact h r rfl

/-- The children of an object. -/
theorem mem_getAllAttrs_obj {c : Cls} {ns : Str} {nss : NsMap} {attrs : List (Str × Val Cls F)}
    {x : Node F} : x ∈ getAllAttrs (.val (.obj c ns nss attrs)) ↔
      (∃ p u, (p, u) ∈ nss ∧ x = .val (.str p)) ∨
      ∃ a v, (a, v) ∈ attrs ∧ a.head? ≠ some '_' ∧ x ∈ spread v := by
  simp only [getAllAttrs, dictOrder, List.mem_flatMap, List.mem_filter, List.mem_append,
    List.mem_cons, List.mem_map, isPublic_iff]
  constructor
  · rintro ⟨⟨a, l⟩, ⟨h, hp⟩, hx⟩
    rcases h with ⟨⟨⟨b, v⟩, hv, he⟩, _⟩ | h | h | ⟨⟨⟨b, v⟩, hv, he⟩, _⟩
    · cases he; exact Or.inr ⟨_, _, hv, hp, hx⟩
    · cases h
      obtain ⟨⟨p, u⟩, hp, rfl⟩ := List.mem_map.mp hx
      exact Or.inl ⟨p, u, hp, rfl⟩
    · cases h; cases hx
    · cases he; exact Or.inr ⟨_, _, hv, hp, hx⟩
  · rintro (⟨p, u, hp, rfl⟩ | ⟨a, v, hv, hp, hx⟩)
    · exact ⟨(s% "name_spaces", _), ⟨Or.inr (Or.inl rfl), by simp⟩,
        List.mem_map.mpr ⟨(p, u), hp, rfl⟩⟩
    · refine ⟨(a, spread v), ⟨?_, hp⟩, hx⟩
      by_cases hb : a ∈ beforeBase c
      · exact Or.inl ⟨⟨(a, v), hv, rfl⟩, by simp [hb]⟩
      · exact Or.inr (Or.inr (Or.inr ⟨⟨(a, v), hv, rfl⟩, by simp [hb]⟩))

theorem getAllAttrs_depth {n x : Node F} (h : x ∈ getAllAttrs n) : x.depth < n.depth := by
  cases n with
  | val v =>
    cases v
    case obj c ns nss attrs =>
      rcases mem_getAllAttrs_obj.mp h with ⟨p, u, _, rfl⟩ | ⟨a, v, hv, _, hx⟩
      · simp only [Node.depth, Val.depth]
        exact Nat.lt_succ_of_le (depthAttrs_pos _)
      · simp only [Node.depth, Val.depth]
        exact Nat.lt_succ_of_le (Nat.le_trans (spread_depth hx) (depthAttrs_mem hv))
    case dt k =>
      simp only [getAllAttrs, List.mem_cons, List.not_mem_nil, or_false] at h
      rcases h with rfl | rfl <;> simp [Node.depth, Val.depth]
    all_goals (simp [getAllAttrs] at h)
  | row r =>
    obtain ⟨w, c, a⟩ := r
    simp only [getAllAttrs, List.mem_append, List.mem_cons] at h
    rcases h with h | rfl | h
    · cases w
      · cases h
      · simp only [List.mem_singleton] at h
        subst h
        simp [Node.depth, Val.depth]
    · simp [Node.depth]
    · cases a
      · simp only [List.mem_singleton] at h
        subst h
        simp [Node.depth, Val.depth]
      · simp only [List.mem_singleton] at h
        subst h
        simp [Node.depth]
  | angle a =>
    simp only [getAllAttrs, List.mem_cons, List.not_mem_nil, or_false] at h
    rcases h with rfl | rfl | rfl <;> simp [Node.depth, Val.depth]
  | tuple _ => cases h
  | point _ => cases h
  | moment _ => cases h
  | resolution _ => cases h

/-- The children are what `Has` says. -/
theorem mem_getAllAttrs {n x : Node F} : x ∈ getAllAttrs n ↔ Has n x := by
  constructor
  · intro h
    cases n with
    | val v =>
      cases v
      case obj c ns nss attrs =>
        rcases mem_getAllAttrs_obj.mp h with ⟨p, u, hp, rfl⟩ | ⟨a, v, hv, hp, hx⟩
        · exact .pfx hp
        · cases v <;> simp only [spread, List.mem_map, List.mem_singleton, List.not_mem_nil] at hx
          case list l => obtain ⟨w, hw, rfl⟩ := hx; exact .elem hv hp hw
          case floats l => obtain ⟨w, hw, rfl⟩ := hx; exact .float hv hp hw
          case coords l => obtain ⟨w, hw, rfl⟩ := hx; exact .coord hv hp hw
          case whens l =>
            obtain ⟨w, hw, rfl⟩ := hx
            cases w
            · exact .noTime hv hp hw
            · exact .time hv hp hw
          case items l => obtain ⟨w, hw, rfl⟩ := hx; exact .row hv hp hw
          all_goals (subst hx; exact .attr hv hp trivial)
      case dt k =>
        simp only [getAllAttrs, List.mem_cons, List.not_mem_nil, or_false] at h
        rcases h with rfl | rfl
        · exact .moment
        · exact .resolution
      all_goals (simp [getAllAttrs] at h)
    | row r =>
      obtain ⟨w, c, a⟩ := r
      simp only [getAllAttrs, List.mem_append, List.mem_cons] at h
      rcases h with h | rfl | h
      · cases w
        · cases h
        · simp only [List.mem_singleton] at h
          subst h
          exact .rowTime rfl
      · exact .rowCoord (r := ⟨w, c, a⟩)
      · cases a
        · simp only [List.mem_singleton] at h
          subst h
          exact .rowNoAngle rfl
        · simp only [List.mem_singleton] at h
          subst h
          exact .rowAngle rfl
    | angle a =>
      simp only [getAllAttrs, List.mem_cons, List.not_mem_nil, or_false] at h
      rcases h with rfl | rfl | rfl
      · exact .heading
      · exact .tilt
      · exact .roll
    | tuple _ => cases h
    | point _ => cases h
    | moment _ => cases h
    | resolution _ => cases h
  · intro h
    cases h with
    | @attr c ns nss attrs a v hv hp hl =>
      refine mem_getAllAttrs_obj.mpr (Or.inr ⟨a, v, hv, hp, ?_⟩)
      cases v <;> simp_all [spread, Plainly]
    | elem hv hp hw =>
      exact mem_getAllAttrs_obj.mpr (Or.inr ⟨_, _, hv, hp, List.mem_map.mpr ⟨_, hw, rfl⟩⟩)
    | float hv hp hw =>
      exact mem_getAllAttrs_obj.mpr (Or.inr ⟨_, _, hv, hp, List.mem_map.mpr ⟨_, hw, rfl⟩⟩)
    | coord hv hp hw =>
      exact mem_getAllAttrs_obj.mpr (Or.inr ⟨_, _, hv, hp, List.mem_map.mpr ⟨_, hw, rfl⟩⟩)
    | noTime hv hp hw =>
      exact mem_getAllAttrs_obj.mpr (Or.inr ⟨_, _, hv, hp, List.mem_map.mpr ⟨none, hw, rfl⟩⟩)
    | time hv hp hw =>
      exact mem_getAllAttrs_obj.mpr (Or.inr ⟨_, _, hv, hp, List.mem_map.mpr ⟨some _, hw, rfl⟩⟩)
    | row hv hp hw =>
      exact mem_getAllAttrs_obj.mpr (Or.inr ⟨_, _, hv, hp, List.mem_map.mpr ⟨_, hw, rfl⟩⟩)
    | pfx hp => exact mem_getAllAttrs_obj.mpr (Or.inl ⟨_, _, hp, rfl⟩)
    | moment => simp [getAllAttrs]
    | resolution => simp [getAllAttrs]
    | rowTime h => simp [getAllAttrs, h]
    | rowCoord => simp [getAllAttrs]
    | rowAngle h => simp [getAllAttrs, h]
    | rowNoAngle h => simp [getAllAttrs, h]
    | heading => simp [getAllAttrs]
    | tilt => simp [getAllAttrs]
    | roll => simp [getAllAttrs]

theorem flatMap_congrOn {α β : Type} {l : List α} {f g : α → List β}
    (h : ∀ x ∈ l, f x = g x) : l.flatMap f = l.flatMap g := by
  induction l with
  | nil => rfl
  | cons x r ih =>
    simp only [List.flatMap_cons]
    rw [h x (by simp), ih fun y hy => h y (by simp [hy])]

theorem filterMap_congrOn {α β : Type} {l : List α} {f g : α → Option β}
    (h : ∀ x ∈ l, f x = g x) : l.filterMap f = l.filterMap g := by
  induction l with
  | nil => rfl
  | cons x r ih =>
    simp only [List.filterMap_cons]
    rw [h x (by simp), ih fun y hy => h y (by simp [hy])]

theorem findUpTo_stable (t : Node F → Bool) (k : Nat) : ∀ (k' : Nat) (n : Node F),
    n.depth ≤ k → n.depth ≤ k' → findUpTo t k n = findUpTo t k' n := by
  induction k with
  | zero => intro k' n h; exact absurd (Nat.le_trans n.depth_pos h) (by simp)
  | succ k ih =>
    intro k' n h h'
    cases k' with
    | zero => exact absurd (Nat.le_trans n.depth_pos h') (by simp)
    | succ k' =>
      simp only [findUpTo]
      congr 1
      apply flatMap_congrOn
      intro x hx
      have := getAllAttrs_depth hx
      exact ih k' x (by omega) (by omega)

theorem findUpTo_eq (t : Node F → Bool) (n : Node F) : findUpTo t n.depth n =
    (if t n then [n] else []) ++ (getAllAttrs n).flatMap fun x => findUpTo t x.depth x := by
  have h := findUpTo_stable t n.depth (n.depth + 1) n (Nat.le_refl _) (Nat.le_succ _)
  rw [h]
  simp only [findUpTo]
  congr 1
  apply flatMap_congrOn
  intro x hx
  have := getAllAttrs_depth hx
  exact findUpTo_stable t _ _ x (by omega) (Nat.le_refl _)

/-- The equation of `find_all` (fastkml/utils.py:83-90). -/
theorem findAll_eq (P : Look F) (q : Query F) (n : Node F) : findAll P q n =
    (if q.test P n then [n] else []) ++ (getAllAttrs n).flatMap (findAll P q) :=
  findUpTo_eq _ n

/-- Induction over the tree below a node. -/
theorem node_induction {Q : Node F → Prop} (h : ∀ n, (∀ x ∈ getAllAttrs n, Q x) → Q n) :
    ∀ n, Q n := by
  have : ∀ (d : Nat) (n : Node F), n.depth ≤ d → Q n := by
    intro d
    induction d with
    | zero => intro n hn; exact absurd (Nat.le_trans n.depth_pos hn) (by simp)
    | succ d ih =>
      intro n hn
      apply h
      intro x hx
      have := getAllAttrs_depth hx
      exact ih x (by omega)
  exact fun n => this _ n (Nat.le_refl _)

theorem test_iff (P : Look F) (q : Query F) (n : Node F) : q.test P n = true ↔ Fits P q n := by
  unfold Query.test Fits hasAttributeValues
  rw [Bool.and_eq_true]
  refine and_congr ?_ ?_
  · cases q.ofType with
    | none => simp
    | some cs =>
      simp only [Option.some.injEq, forall_eq']
      constructor
      · intro h
        cases n with
        | val v =>
          cases v <;> simp only [isInstance, Bool.false_eq_true] at h
          obtain ⟨d, hd, h⟩ := List.any_eq_true.mp h
          exact ⟨_, _, _, _, rfl, d, hd, by simpa using h⟩
        | _ => exact absurd h (by simp [isInstance])
      · rintro ⟨c, ns, nss, attrs, rfl, d, hd, h⟩
        exact List.any_eq_true.mpr ⟨d, hd, by simpa using h⟩
  · rw [List.all_eq_true]
    constructor
    · intro h k v hk
      have := h _ hk
      simp only at this
      cases hg : P.getattr n k with
      | none => rw [hg] at this; exact absurd this (by simp)
      | some w => rw [hg] at this; exact ⟨w, rfl, this⟩
    · rintro h ⟨k, v⟩ hk
      obtain ⟨w, hw, he⟩ := h k v hk
      simp only [hw, he]

theorem mem_findAll (P : Look F) (q : Query F) (x : Node F) : ∀ n : Node F,
    x ∈ findAll P q n ↔ Reach n x ∧ Fits P q x := by
  apply node_induction
  intro n ih
  rw [findAll_eq, List.mem_append, List.mem_flatMap]
  constructor
  · rintro (h | ⟨y, hy, h⟩)
    · by_cases ht : q.test P n = true
      · rw [if_pos ht, List.mem_singleton] at h
        subst h
        exact ⟨.refl _, (test_iff _ _ _).mp ht⟩
      · rw [if_neg ht] at h; cases h
    · obtain ⟨h1, h2⟩ := (ih y hy).mp h
      exact ⟨.step (mem_getAllAttrs.mp hy) h1, h2⟩
  · rintro ⟨h, hf⟩
    cases h with
    | refl => left; rw [if_pos ((test_iff _ _ _).mpr hf)]; simp
    | step hxy hr =>
      right
      have hy := mem_getAllAttrs.mpr hxy
      exact ⟨_, hy, (ih _ hy).mpr ⟨hr, hf⟩⟩

/-! ## Positions -/

/-- The position `i :: p` in a list of trees, counted from `k`. -/
def inForest (kids : Node F → List (Node F)) (k : Nat) (l : List (Node F)) :
    List Nat → Option (Node F)
  | [] => none
  | i :: p => if i < k then none else match l[i - k]? with
    | none => none
    | some x => at_ kids x p

theorem inForest_cons_lt {kids : Node F → List (Node F)} {k : Nat} {x : Node F}
    {l : List (Node F)} {p : List Nat} {y : Node F}
    (h : inForest kids (k + 1) l p = some y) : inForest kids k (x :: l) p = some y := by
  cases p with
  | nil => cases h
  | cons i p =>
    simp only [inForest] at h ⊢
    by_cases hi : i < k + 1
    · rw [if_pos hi] at h; cases h
    · rw [if_neg hi] at h
      rw [if_neg (by omega), show i - k = (i - (k + 1)) + 1 by omega]
      exact h

theorem forest_positions {t : Node F → Bool} {g : Node F → List (Node F)} (kids : Node F → List (Node F))
    (l : List (Node F)) : ∀ k,
    (∀ x ∈ l, ∃ ps : List (List Nat), ps.Pairwise Before ∧
      (∀ p, p ∈ ps ↔ ∃ y, at_ kids x p = some y ∧ t y = true) ∧
      ps.filterMap (at_ kids x) = g x) →
    ∃ ps : List (List Nat), ps.Pairwise Before ∧
      (∀ p, p ∈ ps ↔ ∃ y, inForest kids k l p = some y ∧ t y = true) ∧
      ps.filterMap (inForest kids k l) = l.flatMap g := by
  induction l with
  | nil =>
    intro k _
    refine ⟨[], List.Pairwise.nil, ?_, rfl⟩
    intro p
    constructor
    · intro h; cases h
    · rintro ⟨y, h, _⟩
      cases p <;> simp [inForest] at h
  | cons x r ih =>
    intro k h
    obtain ⟨ps, hs, hm, hg⟩ := h x (by simp)
    obtain ⟨qs, hs', hm', hg'⟩ := ih (k + 1) fun y hy => h y (by simp [hy])
    refine ⟨ps.map (k :: ·) ++ qs, ?_, ?_, ?_⟩
    · rw [List.pairwise_append]
      refine ⟨List.pairwise_map.mpr (hs.imp fun h => .cons h), hs', ?_⟩
      intro a ha b hb
      obtain ⟨p, _, rfl⟩ := List.mem_map.mp ha
      obtain ⟨y, hy, _⟩ := (hm' b).mp hb
      cases b with
      | nil => cases hy
      | cons j b =>
        simp only [inForest] at hy
        by_cases hj : j < k + 1
        · rw [if_pos hj] at hy; cases hy
        · exact .left (by omega)
    · intro p
      rw [List.mem_append, List.mem_map]
      constructor
      · rintro (⟨q, hq, rfl⟩ | hp)
        · obtain ⟨y, hy, ht⟩ := (hm q).mp hq
          refine ⟨y, ?_, ht⟩
          simp only [inForest]
          rw [if_neg (by omega)]
          simpa using hy
        · obtain ⟨y, hy, ht⟩ := (hm' p).mp hp
          exact ⟨y, inForest_cons_lt hy, ht⟩
      · rintro ⟨y, hy, ht⟩
        cases p with
        | nil => cases hy
        | cons i p =>
          by_cases hi : i = k
          · subst hi
            left
            refine ⟨p, (hm p).mpr ⟨y, ?_, ht⟩, rfl⟩
            simpa [inForest] using hy
          · right
            refine (hm' _).mpr ⟨y, ?_, ht⟩
            simp only [inForest] at hy ⊢
            by_cases hk : i < k
            · rw [if_pos hk] at hy; cases hy
            · rw [if_neg hk, show i - k = (i - (k + 1)) + 1 by omega] at hy
              rw [if_neg (by omega)]
              exact hy
    · rw [List.filterMap_append, List.flatMap_cons]
      congr 1
      · rw [← hg, List.filterMap_map]
        congr 1
        funext p
        simp [inForest]
      · rw [← hg']
        apply filterMap_congrOn
        intro p hp
        obtain ⟨y, hy, _⟩ := (hm' p).mp hp
        rw [hy, inForest_cons_lt hy]

theorem findUpTo_positions (t : Node F → Bool) : ∀ n : Node F,
    ∃ ps : List (List Nat), ps.Pairwise Before ∧
      (∀ p, p ∈ ps ↔ ∃ y, at_ getAllAttrs n p = some y ∧ t y = true) ∧
      ps.filterMap (at_ getAllAttrs n) = findUpTo t n.depth n := by
  apply node_induction
  intro n ih
  obtain ⟨qs, hs, hm, hg⟩ := forest_positions (t := t) (g := fun x => findUpTo t x.depth x)
    getAllAttrs (getAllAttrs n) 0 ih
  have hf : ∀ i p, inForest getAllAttrs 0 (getAllAttrs n) (i :: p) = at_ getAllAttrs n (i :: p) := by
    intro i p
    simp only [inForest, at_, Nat.not_lt_zero, if_false, Nat.sub_zero]
    cases (getAllAttrs n)[i]? <;> rfl
  have hne : ∀ q ∈ qs, ∃ i p, q = i :: p := by
    intro q hq
    obtain ⟨y, hy, _⟩ := (hm q).mp hq
    cases q with
    | nil => cases hy
    | cons i p => exact ⟨i, p, rfl⟩
  have hqs : qs.filterMap (at_ getAllAttrs n) =
      (getAllAttrs n).flatMap fun x => findUpTo t x.depth x := by
    rw [← hg]
    apply filterMap_congrOn
    intro q hq
    obtain ⟨i, p, rfl⟩ := hne q hq
    exact (hf i p).symm
  have hmem : ∀ i p, i :: p ∈ qs ↔ ∃ y, at_ getAllAttrs n (i :: p) = some y ∧ t y = true := by
    intro i p
    rw [hm, hf]
  rw [findUpTo_eq]
  by_cases ht : t n = true
  · refine ⟨[] :: qs, ?_, ?_, ?_⟩
    · refine List.pairwise_cons.mpr ⟨?_, hs⟩
      intro q hq
      obtain ⟨i, p, rfl⟩ := hne q hq
      exact .nil
    · intro p
      cases p with
      | nil => simp [at_, ht]
      | cons i p => simp only [List.mem_cons, reduceCtorEq, false_or]; exact hmem i p
    · simp only [List.filterMap_cons, at_, ht, if_true, hqs]
      rfl
  · refine ⟨qs, hs, ?_, ?_⟩
    · intro p
      cases p with
      | nil =>
        constructor
        · intro h
          obtain ⟨i, p, h⟩ := hne _ h
          cases h
        · rintro ⟨y, hy, h⟩
          cases hy
          exact absurd h ht
      | cons i p => exact hmem i p
    · rw [hqs, if_neg ht]
      rfl

end Verif
