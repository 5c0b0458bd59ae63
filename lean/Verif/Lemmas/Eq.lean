import Verif.Spec.Eq
import Verif.Lemmas.Find
import Verif.Lemmas.Fastkml
import Verif.Lemmas.Canonical
import Verif.Lemmas.Make

/-!
# Lemmas about equality
-/

set_option linter.unusedSectionVars false
set_option linter.unusedSimpArgs false

namespace Verif
open Spec

/-! ## Lists -/

theorem subset_of_length {α : Type} [DecidableEq α] : ∀ {l m : List α}, l.Nodup → (∀ x ∈ l, x ∈ m) →
    m.length ≤ l.length → ∀ x ∈ m, x ∈ l
  | [], m, _, _, h, x, hx => by
    have : m = [] := List.length_eq_zero_iff.mp (Nat.le_zero.mp h)
    rw [this] at hx; cases hx
  | a :: l, m, hn, hs, h, x, hx => by
    have ha := hs a (by simp)
    rw [List.nodup_cons] at hn
    by_cases hxa : x = a
    · simp [hxa]
    · have hl := List.length_erase_of_mem ha
      have hsub : ∀ y ∈ l, y ∈ m.erase a := by
        intro y hy
        have : y ≠ a := fun e => hn.1 (e ▸ hy)
        exact (List.mem_erase_of_ne this).mpr (hs y (by simp [hy]))
      have := subset_of_length hn.2 hsub (by simp only [List.length_cons] at h; omega) x
        ((List.mem_erase_of_ne hxa).mpr hx)
      simp [this]

theorem length_of_subset {α : Type} [DecidableEq α] : ∀ {l m : List α}, l.Nodup → (∀ x ∈ l, x ∈ m) →
    l.length ≤ m.length
  | [], _, _, _ => Nat.zero_le _
  | a :: l, m, hn, hs => by
    have ha := hs a (by simp)
    rw [List.nodup_cons] at hn
    have hl := List.length_erase_of_mem ha
    have hpos : 0 < m.length := List.length_pos_of_mem ha
    have hsub : ∀ y ∈ l, y ∈ m.erase a := by
      intro y hy
      have : y ≠ a := fun e => hn.1 (e ▸ hy)
      exact (List.mem_erase_of_ne this).mpr (hs y (by simp [hy]))
    have := length_of_subset hn.2 hsub
    simp only [List.length_cons]; omega

theorem nssEq_iff {n m : NsMap} (hn : (n.map Prod.fst).Nodup) (hm : (m.map Prod.fst).Nodup) :
    nssEq n m = true ↔ SameMap n m := by
  simp only [nssEq, Bool.and_eq_true, decide_eq_true_eq, List.all_eq_true]
  constructor
  · rintro ⟨hl, hall⟩ k
    have hsub : ∀ x ∈ n.map Prod.fst, x ∈ m.map Prod.fst := by
      intro x hx
      obtain ⟨p, hp, rfl⟩ := List.mem_map.mp hx
      exact List.mem_map.mpr ⟨_, dget_mem (hall p hp), rfl⟩
    have hback := subset_of_length hn hsub (by simp [hl])
    cases hk : dget k n with
    | some v => exact (hall _ (dget_mem hk)).symm
    | none =>
      symm
      rw [dget_eq_none] at hk ⊢
      exact fun h => hk (hback k h)
  · intro h
    have key : ∀ {n m : NsMap}, SameMap n m → ∀ x ∈ n.map Prod.fst, x ∈ m.map Prod.fst := by
      intro n m h x hx
      by_cases hc : x ∈ m.map Prod.fst
      · exact hc
      · rw [← dget_eq_none, ← h x, dget_eq_none] at hc
        exact absurd hx hc
    have h1 := length_of_subset hn (key h)
    have h2 := length_of_subset hm (key fun k => (h k).symm)
    simp only [List.length_map] at h1 h2
    refine ⟨by omega, fun p hp => ?_⟩
    rw [← h]
    exact dget_of_mem hn hp

theorem allE_true {l : List (Except Err Bool)} : allE l = .ok true ↔ ∀ x ∈ l, x = .ok true := by
  induction l with
  | nil => simp [allE]
  | cons b l ih =>
    cases b with
    | error e => simp [allE]
    | ok b => cases b <;> simp [allE, ih]

theorem allE_ok {l : List (Except Err Bool)} (h : ∀ x ∈ l, ∃ b, x = .ok b) : ∃ b, allE l = .ok b := by
  induction l with
  | nil => exact ⟨true, rfl⟩
  | cons b l ih =>
    obtain ⟨r, rfl⟩ := h b (by simp)
    cases r with
    | false => exact ⟨false, rfl⟩
    | true => exact ih fun x hx => h x (by simp [hx])

/-! ## The equation of `==` -/

section
variable {F : Type} [PyExt F] [PyClose F]

theorem attrEq_congr {E E' : Val Cls F → Val Cls F → Except Err Bool} {x y : Inst F}
    (h : ∀ a v b w, (a, v) ∈ x.attrs → (b, w) ∈ y.attrs → E v w = E' v w) (a : Str) :
    attrEq E x y a = attrEq E' x y a := by
  simp only [attrEq]
  cases hv : dget a x.attrs with
  | none => rfl
  | some v =>
    cases hw : dget a y.attrs with
    | none => rfl
    | some w => exact h a v a w (dget_mem hv) (dget_mem hw)

theorem dictEq_congr {E E' : Val Cls F → Val Cls F → Except Err Bool} {x y : Inst F}
    (h : ∀ a v b w, (a, v) ∈ x.attrs → (b, w) ∈ y.attrs → E v w = E' v w) :
    dictEq E x y = dictEq E' x y := by
  simp only [dictEq]
  have : (x.attrs.map fun p => (p.1, dictEntry E y p)) = x.attrs.map fun p => (p.1, dictEntry E' y p) := by
    apply List.map_congr_left
    rintro ⟨a, v⟩ hp
    simp only [dictEntry]
    cases hw : dget a y.attrs with
    | none => rfl
    | some w => simp only [h a v a w hp (dget_mem hw)]
  rw [this]

theorem methodEq_congr {E E' : Val Cls F → Val Cls F → Except Err Bool} {x y : Inst F}
    (h : ∀ a v b w, (a, v) ∈ x.attrs → (b, w) ∈ y.attrs → E v w = E' v w) :
    methodEq E x y = methodEq E' x y := by
  have ha : attrEq E x y = attrEq E' x y := funext (attrEq_congr h)
  simp only [methodEq, ha, dictEq_congr h]

theorem eqStep_congr {E E' : Val Cls F → Val Cls F → Except Err Bool} {a b : Val Cls F}
    (h : ∀ v w : Val Cls F, v.depth + w.depth < a.depth + b.depth → E v w = E' v w) :
    eqStep E a b = eqStep E' a b := by
  cases a <;> cases b <;> try rfl
  case list.list l m =>
    simp only [eqStep, listEq]
    have : ((l.zip m).map fun p => E p.1 p.2) = (l.zip m).map fun p => E' p.1 p.2 := by
      apply List.map_congr_left
      rintro ⟨v, w⟩ hp
      have h1 := depthList_mem (List.of_mem_zip hp).1
      have h2 := depthList_mem (List.of_mem_zip hp).2
      apply h
      simp only [Val.depth] at *
      omega
    rw [this]
  case obj.obj c ns nss as d ns' nss' bs =>
    have h1 : ∀ a v b w, (a, v) ∈ as → (b, w) ∈ bs → E v w = E' v w := by
      intro a v b w hv hw
      have h1 := depthAttrs_mem hv
      have h2 := depthAttrs_mem hw
      apply h
      simp only [Val.depth] at *
      omega
    have h2 : ∀ a v b w, (a, v) ∈ bs → (b, w) ∈ as → E v w = E' v w := by
      intro a v b w hv hw
      have h1 := depthAttrs_mem hv
      have h2 := depthAttrs_mem hw
      apply h
      simp only [Val.depth] at *
      omega
    simp only [eqStep, instEq]
    rw [methodEq_congr (x := ⟨c, ns, nss, as⟩) (y := ⟨d, ns', nss', bs⟩) h1,
      methodEq_congr (x := ⟨d, ns', nss', bs⟩) (y := ⟨c, ns, nss, as⟩) h2]

theorem eqUpTo_stable : ∀ (k : Nat) (a b : Val Cls F), a.depth + b.depth ≤ k → eqUpTo k a b = pyEq a b := by
  intro k
  induction k using Nat.strongRecOn with
  | ind k ih =>
    intro a b hk
    have ha := a.depth_pos
    obtain ⟨d, hd⟩ : ∃ d, a.depth + b.depth = d + 1 := ⟨a.depth + b.depth - 1, by omega⟩
    obtain ⟨k', rfl⟩ : ∃ k', k = k' + 1 := ⟨k - 1, by omega⟩
    rw [pyEq, hd, eqUpTo, eqUpTo]
    apply eqStep_congr
    intro v w hvw
    rw [ih k' (by omega) v w (by omega), ih d (by omega) v w (by omega)]

/-- The equation of `==`. -/
theorem pyEq_eq (a b : Val Cls F) : pyEq a b = eqStep pyEq a b := by
  have ha := a.depth_pos
  obtain ⟨d, hd⟩ : ∃ d, a.depth + b.depth = d + 1 := ⟨a.depth + b.depth - 1, by omega⟩
  rw [pyEq, hd, eqUpTo]
  apply eqStep_congr
  intro v w hvw
  exact eqUpTo_stable d v w (by omega)

/-- Induction on pairs of values. -/
theorem pair_ind {P : Val Cls F → Val Cls F → Prop}
    (h : ∀ a b, (∀ v w : Val Cls F, v.depth + w.depth < a.depth + b.depth → P v w) → P a b) : ∀ a b, P a b := by
  have : ∀ n a b, (a : Val Cls F).depth + b.depth = n → P a b := by
    intro n
    induction n using Nat.strongRecOn with
    | ind n ih =>
      intro a b hn
      exact h a b fun v w hvw => ih _ (by omega) v w rfl
  exact fun a b => this _ a b rfl

/-! ## Classes -/

theorem mro_antisymm {c d : Cls} (h1 : c ∈ (fastkml.info d).mro) (h2 : d ∈ (fastkml.info c).mro) : c = d := by
  have : ∀ c ∈ Cls.all, ∀ d ∈ (fastkml.info c).mro, c ∈ (fastkml.info d).mro → c = d := by decide +kernel
  exact this c (Cls.mem_all c) d h2 h1

theorem rule_related {c d e : Cls} {as : List Str} (h : eqRule c = .fields e as)
    (he : e ∈ (fastkml.info d).mro) : c = d ∨ c ∈ (fastkml.info d).mro ∨ d ∈ (fastkml.info c).mro := by
  have : ∀ c ∈ Cls.all, ∀ d ∈ Cls.all, (match eqRule c with
      | .default => true
      | .fields e _ => decide (e ∈ (fastkml.info d).mro → c = d ∨ c ∈ (fastkml.info d).mro ∨ d ∈ (fastkml.info c).mro)) = true := by
    decide +kernel
  have := this c (Cls.mem_all c) d (Cls.mem_all d)
  rw [h] at this
  exact of_decide_eq_true this he

/-- What holds of the classes with their own `__eq__`. -/
theorem rule_facts {c e : Cls} {as : List Str} (h : eqRule c = .fields e as) :
    e ∈ (fastkml.info c).mro ∧ (fastkml.info c).geom ≠ .none ∧ flat (fastkml.info c).geom = true ∧
    ∀ d, e ∈ (fastkml.info d).mro → ∀ a ∈ as ++ [s% "id", s% "target_id"], a ∈ names d := by
  have : ∀ c ∈ Cls.all, (match eqRule c with
      | .default => true
      | .fields e as => decide (e ∈ (fastkml.info c).mro ∧ (fastkml.info c).geom ≠ .none ∧
          flat (fastkml.info c).geom = true ∧
          ∀ d ∈ Cls.all, e ∈ (fastkml.info d).mro → ∀ a ∈ as ++ [s% "id", s% "target_id"], a ∈ names d)) = true := by
    decide +kernel
  have := this c (Cls.mem_all c)
  rw [h] at this
  obtain ⟨h1, h2, h3, h4⟩ := of_decide_eq_true this
  exact ⟨h1, h2, h3, fun d => h4 d (Cls.mem_all d)⟩

/-- An instance of the class compared with has the same rule. -/
theorem rule_inst {c d e : Cls} {as : List Str} (h : eqRule c = .fields e as)
    (he : e ∈ (fastkml.info d).mro) : eqRule d = .fields e as := by
  have : ∀ c ∈ Cls.all, ∀ d ∈ Cls.all, (match eqRule c with
      | .default => true
      | .fields e _ => decide (e ∈ (fastkml.info d).mro → eqRule d = eqRule c)) = true := by
    decide +kernel
  have := this c (Cls.mem_all c) d (Cls.mem_all d)
  rw [h] at this
  exact of_decide_eq_true this he

theorem names_nodup (c : Cls) : (names c).Nodup := nodup_layout (fastkml_readOk c)

/-! ## Objects -/

/-- A regular instance. -/
def Inst.Reg (x : Inst F) : Prop := Regular x.c x.ns x.nss x.attrs

theorem Inst.Reg.nodup {x : Inst F} (h : x.Reg) : (x.attrs.map Prod.fst).Nodup := h.layout ▸ names_nodup x.c

theorem Inst.Reg.get {x : Inst F} (h : x.Reg) {a : Str} (ha : a ∈ names x.c) :
    dget a x.attrs = some (attr a x.attrs) := by
  unfold attr
  cases hd : dget a x.attrs with
  | some v => rfl
  | none => rw [dget_eq_none, h.layout] at hd; exact absurd ha hd

theorem Inst.Reg.mem {x : Inst F} (h : x.Reg) {a : Str} (ha : a ∈ names x.c) :
    (a, attr a x.attrs) ∈ x.attrs := dget_mem (h.get ha)

theorem Inst.Reg.extra {x : Inst F} (h : x.Reg) : x.extraKeys = [] := by
  simp only [extraKeys, h.layout, List.filter_eq_nil_iff, decide_eq_true_eq]
  intro a ha hn
  apply hn
  simp only [names, List.mem_append] at ha ⊢
  rcases ha with ha | ha
  · by_cases hs : (fastkml.info x.c).special = .track
    · rw [if_pos hs] at ha
      rw [hs]
      simp only [List.mem_singleton] at ha
      left; simp [specialArgs, ha]
    · rw [if_neg hs] at ha; cases ha
  · exact Or.inr ha

theorem Inst.Reg.splat {x : Inst F} (h : x.Reg) : x.splat = [] := by simp [Inst.splat, h.extra]

theorem attrEq_reg (E : Val Cls F → Val Cls F → Except Err Bool) {x y : Inst F} (hx : x.Reg) (hy : y.Reg)
    {a : Str} (ha : a ∈ names x.c) (hb : a ∈ names y.c) :
    attrEq E x y a = E (attr a x.attrs) (attr a y.attrs) := by
  simp only [attrEq, hx.get ha, hy.get hb]

/-- The entries of the comparison of dictionaries. -/
theorem mem_dictOrder {α : Type} {c : Cls} {nss ns r : α} {attrs : List (Str × α)} :
    r ∈ (dictOrder c nss ns attrs).map (·.2) ↔ r = nss ∨ r = ns ∨ ∃ a, (a, r) ∈ attrs := by
  simp only [dictOrder, List.map_append, List.map_cons, List.mem_append, List.mem_cons, List.mem_map,
    List.mem_filter, decide_eq_true_eq, Prod.exists]
  constructor
  · rintro (⟨a, b, ⟨h, _⟩, rfl⟩ | h | h | ⟨a, b, ⟨h, _⟩, rfl⟩)
    · exact Or.inr (Or.inr ⟨a, h⟩)
    · exact Or.inl h
    · exact Or.inr (Or.inl h)
    · exact Or.inr (Or.inr ⟨a, h⟩)
  · rintro (h | h | ⟨a, h⟩)
    · exact Or.inr (Or.inl h)
    · exact Or.inr (Or.inr (Or.inl h))
    · by_cases ha : a ∈ beforeBase c
      · exact Or.inl ⟨a, r, ⟨h, ha⟩, rfl⟩
      · exact Or.inr (Or.inr (Or.inr ⟨a, r, ⟨h, ha⟩, rfl⟩))

theorem dictEq_reg (E : Val Cls F → Val Cls F → Except Err Bool) {x y : Inst F} (hx : x.Reg) (hy : y.Reg)
    (hc : x.c = y.c) :
    dictEq E x y = .ok true ↔ x.ns = y.ns ∧ SameMap x.nss y.nss ∧
      ∀ a ∈ names x.c, E (attr a x.attrs) (attr a y.attrs) = .ok true := by
  have hlen : x.attrs.length = y.attrs.length := by
    have := congrArg List.length (hx.layout.trans (hc ▸ hy.layout.symm))
    simpa using this
  have hkey : ∀ p ∈ x.attrs, dictEntry E y p = E (attr p.1 x.attrs) (attr p.1 y.attrs) := by
    rintro ⟨a, v⟩ hp
    have ha : a ∈ names x.c := hx.layout ▸ List.mem_map.mpr ⟨_, hp, rfl⟩
    simp only [dictEntry, hy.get (hc ▸ ha)]
    have : attr a x.attrs = v := by simp [attr, dget_of_mem hx.nodup hp]
    rw [this]
  simp only [dictEq, hlen, ne_eq, not_true_eq_false, if_false, allE_true, List.mem_append, mem_dictOrder,
    List.mem_singleton]
  simp only [List.mem_map, Prod.mk.injEq]
  rw [← nssEq_iff hx.nss hy.nss]
  constructor
  · intro h
    refine ⟨?_, ?_, ?_⟩
    · have := h _ (Or.inl (Or.inr (Or.inl rfl)))
      simpa using this
    · have := h _ (Or.inl (Or.inl rfl))
      simpa using this
    · intro a ha
      have := h _ (Or.inl (Or.inr (Or.inr ⟨a, _, hx.mem ha, rfl, rfl⟩)))
      rwa [hkey _ (hx.mem ha)] at this
  · rintro ⟨h1, h2, h3⟩ r ((rfl | rfl | ⟨a, p, hp, _, rfl⟩) | rfl)
    · rw [h2]
    · simp [h1]
    · rw [hkey p hp]
      exact h3 _ (hx.layout ▸ List.mem_map.mpr ⟨_, hp, rfl⟩)
    · simp [hx.extra, hy.extra]

theorem dictEq_ok {E : Val Cls F → Val Cls F → Except Err Bool} {x y : Inst F}
    (h : ∀ a v b w, (a, v) ∈ x.attrs → (b, w) ∈ y.attrs → ∃ r, E v w = .ok r) : ∃ r, dictEq E x y = .ok r := by
  simp only [dictEq]
  by_cases hl : x.attrs.length ≠ y.attrs.length
  · rw [if_pos hl]; exact ⟨_, rfl⟩
  · rw [if_neg hl]
    apply allE_ok
    intro r hr
    simp only [List.mem_append, mem_dictOrder, List.mem_singleton] at hr
    simp only [List.mem_map, Prod.mk.injEq] at hr
    rcases hr with (rfl | rfl | ⟨a, p, hp, _, rfl⟩) | rfl
    · exact ⟨_, rfl⟩
    · exact ⟨_, rfl⟩
    · simp only [dictEntry]
      cases hw : dget p.1 y.attrs with
      | none => exact ⟨_, rfl⟩
      | some w => exact h p.1 p.2 p.1 w hp (dget_mem hw)
    · exact ⟨_, rfl⟩

theorem fields_reg (E : Val Cls F → Val Cls F → Except Err Bool) {x y : Inst F} (hx : x.Reg) (hy : y.Reg)
    {e : Cls} {as : List Str} (hr : eqRule x.c = .fields e as) (he : e ∈ (fastkml.info y.c).mro) :
    methodEq E x y = .ok true ↔
      (∀ a ∈ as ++ [s% "id", s% "target_id"], E (attr a x.attrs) (attr a y.attrs) = .ok true) ∧
      geometryEq x y = .ok true ∧ x.ns = y.ns ∧ SameMap x.nss y.nss := by
  obtain ⟨hm, _, _, hn⟩ := rule_facts hr
  have hat : ∀ a ∈ as ++ [s% "id", s% "target_id"], attrEq E x y a = E (attr a x.attrs) (attr a y.attrs) :=
    fun a ha => attrEq_reg E hx hy (hn _ hm a ha) (hn _ he a ha)
  rw [← nssEq_iff hx.nss hy.nss]
  simp only [methodEq, hr, he, if_true, allE_true, hx.splat, List.map_nil, List.append_nil, List.mem_append,
    List.mem_cons, List.mem_map, List.not_mem_nil, or_false]
  simp only [List.mem_append, List.mem_cons, List.not_mem_nil, or_false] at hat
  constructor
  · intro h
    refine ⟨?_, h _ (Or.inr (Or.inl rfl)), ?_, ?_⟩
    · rintro a (ha | rfl | rfl)
      · rw [← hat a (Or.inl ha)]; exact h _ (Or.inl ⟨a, ha, rfl⟩)
      · rw [← hat _ (Or.inr (Or.inl rfl))]; exact h _ (Or.inr (Or.inr (Or.inr (Or.inr (Or.inl rfl)))))
      · rw [← hat _ (Or.inr (Or.inr rfl))]; exact h _ (Or.inr (Or.inr (Or.inr (Or.inr (Or.inr rfl)))))
    · have := h _ (Or.inr (Or.inr (Or.inl rfl))); simpa using this
    · have := h _ (Or.inr (Or.inr (Or.inr (Or.inl rfl)))); simpa using this
  · rintro ⟨h1, h2, h3, h4⟩ r (⟨a, ha, rfl⟩ | rfl | rfl | rfl | rfl | rfl)
    · rw [hat a (Or.inl ha)]; exact h1 a (Or.inl ha)
    · exact h2
    · simp [h3]
    · rw [h4]
    · rw [hat _ (Or.inr (Or.inl rfl))]; exact h1 _ (Or.inr (Or.inl rfl))
    · rw [hat _ (Or.inr (Or.inr rfl))]; exact h1 _ (Or.inr (Or.inr rfl))

/-! ## Geometries -/

theorem eqAll_iff {α : Type} {eq : α → α → Bool} {l m : List α} :
    eqAll eq l m = true ↔ All2 (fun a b => eq a b = true) l m := by
  induction l generalizing m with
  | nil =>
    cases m with
    | nil => simp only [eqAll, true_iff]; exact .nil
    | cons b m => simp only [eqAll, Bool.false_eq_true, false_iff]; intro h; cases h
  | cons a l ih =>
    cases m with
    | nil => simp only [eqAll, Bool.false_eq_true, false_iff]; intro h; cases h
    | cons b m =>
      simp only [eqAll, Bool.and_eq_true, ih]
      constructor
      · rintro ⟨h1, h2⟩; exact .cons h1 h2
      · intro h; cases h with | cons h1 h2 => exact ⟨h1, h2⟩

theorem eqAll_symm {α : Type} {eq : α → α → Bool} (h : ∀ a b, eq a b = eq b a) (l m : List α) :
    eqAll eq l m = eqAll eq m l := by
  induction l generalizing m with
  | nil => cases m <;> rfl
  | cons a l ih => cases m <;> simp only [eqAll, h a, ih]

theorem eqAll_refl {α : Type} {eq : α → α → Bool} {l : List α} (h : ∀ a ∈ l, eq a a = true) :
    eqAll eq l l = true := by
  induction l with
  | nil => rfl
  | cons a l ih => simp [eqAll, h a (by simp), ih fun b hb => h b (by simp [hb])]

theorem ptClose_iff {p q : Pt F} : ptClose p q = true ↔ ClosePt p q := eqAll_iff

theorem lineClose_iff {l m : List (Pt F)} : eqAll ptClose l m = true ↔ CloseLine l m := by
  rw [eqAll_iff]
  constructor <;> intro h <;> refine h.imp fun a _ b _ hab => ?_
  · exact ptClose_iff.mp hab
  · exact ptClose_iff.mpr hab

theorem geoEq_iff {g h : Geo F} : geoEq g h = true ↔ g.nonEmpty = true ∧ h.nonEmpty = true ∧ Close g h := by
  simp only [geoEq, Bool.and_eq_true, and_assoc]
  refine and_congr_right fun _ => and_congr_right fun _ => ?_
  constructor
  · intro hc
    split at hc
    · exact .point (ptClose_iff.mp hc)
    · exact .lineString (lineClose_iff.mp hc)
    · exact .linearRing (lineClose_iff.mp hc)
    · rw [Bool.and_eq_true] at hc
      exact .polygon (lineClose_iff.mp hc.1) ((eqAll_iff.mp hc.2).imp fun _ _ _ _ h => lineClose_iff.mp h)
    · cases hc
  · intro hc
    cases hc with
    | point h => exact ptClose_iff.mpr h
    | lineString h => exact lineClose_iff.mpr h
    | linearRing h => exact lineClose_iff.mpr h
    | polygon h1 h2 =>
      simp only [Bool.and_eq_true]
      exact ⟨lineClose_iff.mpr h1, eqAll_iff.mpr (h2.imp fun _ _ _ _ h => lineClose_iff.mpr h)⟩

theorem geometryEq_iff {x y : Inst F} : geometryEq x y = .ok true ↔ SameGeometry x.val y.val := by
  simp only [geometryEq, SameGeometry]
  cases hx : geometry fastkml x.val with
  | error e => simp
  | ok g =>
    cases hy : geometry fastkml y.val with
    | error e => simp
    | ok h =>
      cases g with
      | none => cases h <;> simp [optGeoEq]
      | some g =>
        cases h with
        | none => simp [optGeoEq]
        | some h => simp [optGeoEq, geoEq_iff]

section
variable [LawfulClose F]

theorem ptClose_symm (p q : Pt F) : ptClose p q = ptClose q p := eqAll_symm LawfulClose.close_symm p q

theorem geoEq_symm (g h : Geo F) : geoEq g h = geoEq h g := by
  have h1 := eqAll_symm (ptClose_symm (F := F))
  have h2 := eqAll_symm h1
  simp only [geoEq, Bool.and_comm g.nonEmpty]
  congr 1
  cases g <;> cases h <;> simp only
  · exact ptClose_symm _ _
  · exact h1 _ _
  · exact h1 _ _
  · rw [h1, h2]

theorem optGeoEq_symm (g h : Option (Geo F)) : optGeoEq g h = optGeoEq h g := by
  cases g <;> cases h <;> simp only [optGeoEq, geoEq_symm]

theorem geometryEq_symm {x y : Inst F} (h : geometryEq x y = .ok true) : geometryEq y x = .ok true := by
  simp only [geometryEq] at h ⊢
  cases hx : geometry fastkml x.val with
  | error e => rw [hx] at h; simp at h
  | ok g =>
    cases hy : geometry fastkml y.val with
    | error e => rw [hx, hy] at h; simp at h
    | ok k =>
      rw [hx, hy] at h
      simp only at h ⊢
      rw [optGeoEq_symm]
      exact h
end

end

end Verif
