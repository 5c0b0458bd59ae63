import Verif.Lemmas.EqLaws

/-!
# The geometries of objects are in normal form
-/

set_option linter.unusedSectionVars false
set_option linter.unusedSimpArgs false

namespace Verif
open Spec

variable {F : Type} [PyExt F] [PyClose F] [LawfulExt F] [LawfulClose F]

theorem dedupeFrom_distinct {l : List (Pt F)} : ∀ {x : Pt F}, ∀ a p q b, x :: dedupeFrom x l = a ++ p :: q :: b →
    ptBeq p q = false := by
  induction l with
  | nil =>
    intro x a p q b h
    simp only [dedupeFrom] at h
    have := congrArg List.length h
    simp at this
    omega
  | cons y l ih =>
    intro x a p q b h
    simp only [dedupeFrom] at h
    by_cases hb : ptBeq x y = true
    · simp only [hb, if_true] at h
      exact ih a p q b h
    · simp only [hb, Bool.false_eq_true, if_false] at h
      cases a with
      | nil =>
        simp only [List.nil_append, List.cons.injEq] at h
        rw [← h.1, ← h.2.1]
        simpa using hb
      | cons z a =>
        simp only [List.cons_append, List.cons.injEq] at h
        exact ih a p q b h.2

theorem dedupe_distinct {l : List (Pt F)} : ∀ a p q b, dedupe l = a ++ p :: q :: b → ptBeq p q = false := by
  cases l with
  | nil => intro a p q b h; simp [dedupe] at h
  | cons x l => exact dedupeFrom_distinct

theorem mkLine_normalLine {l r : List (Pt F)} (h : mkLine l = .ok r) (hl : l ≠ []) (hf : FineLine l) :
    NormalLine r := by
  obtain ⟨h1, h2⟩ := mkLine_fine h hl hf
  obtain ⟨n, hn, hc⟩ := mkLine_clean h
  refine ⟨h1, fun p hp => ⟨by rw [(hc p hp).1]; exact hn, h2 p hp⟩,
    fun p hp q hq => (hc p hp).1.trans (hc q hq).1.symm, ?_⟩
  have : r = dedupe l := setGeoms_fine h fun p hp => hf p (mem_dedupe hp)
  rw [this]
  exact dedupe_distinct

theorem mkRing_normalRing {l r : List (Pt F)} (h : mkRing l = .ok r) (hl : l ≠ []) (hf : FineLine l) :
    NormalRing r := by
  have hc := mkRing_closed h
  simp only [mkRing] at h
  split at h
  · cases h
  · rename_i m hm
    have hN := mkLine_normalLine hm hl hf
    simp only [Except.ok.injEq] at h
    subst h
    refine ⟨?_, hc⟩
    clear hc
    cases m with
    | nil => exact absurd rfl hN.nonempty
    | cons p m =>
      simp only [closeRing]
      split
      · exact hN
      · rename_i q hq
        split
        · exact hN
        · rename_i hpq
          have hmem : ∀ x, x ∈ p :: m ++ [p] → x ∈ p :: m := by
            intro x hx
            simp only [List.cons_append, List.mem_cons, List.mem_append, List.not_mem_nil, or_false] at hx ⊢
            rcases hx with h | h | h
            · exact Or.inl h
            · exact Or.inr h
            · exact Or.inl h
          refine ⟨by simp, fun x hx => hN.points x (hmem x hx), fun x hx y hy => hN.dim x (hmem x hx) y (hmem y hy), ?_⟩
          intro a x y b hab
          rcases List.eq_nil_or_concat b with rfl | ⟨b', z, rfl⟩
          · have h1 : (p :: m) ++ [p] = (a ++ [x]) ++ [y] := by rw [hab]; simp
            obtain ⟨h2, h3⟩ := List.append_inj' h1 rfl
            rw [h2, List.getLast?_append] at hq
            simp at hq h3
            rw [← h3, hq, ptBeq_symm]
            simpa using hpq
          · have h1 : (p :: m) ++ [p] = (a ++ x :: y :: b') ++ [z] := by rw [hab]; simp
            obtain ⟨h2, _⟩ := List.append_inj' h1 rfl
            exact hN.distinct a x y b' h2

/-- The geometries of typed objects without NaN are in normal form. -/
theorem geometry_normal (v : Val Cls F) : typed fastkml dim23 v = true → NoNaN v →
    ∀ c ns nss attrs, v = .obj c ns nss attrs → (fastkml.info c).geom ≠ .none →
    (fastkml.info c).geom ≠ .multi → flat (fastkml.info c).geom = true →
    ∀ g, geometry fastkml v = .ok (some g) →
      Normal g ∧ ((fastkml.info c).geom = .boundary → ∃ l, g = .linearRing l) ∧
        ((fastkml.info c).geom = .linearRing → ∃ l, g = .linearRing l) ∧
        ((fastkml.info c).geom = .lineString → ∃ l, g = .lineString l) ∧
        ((fastkml.info c).geom = .polygon → ∃ s hs, g = .polygon s hs) := by
  induction v using Val.objInd with
  | hother v hv => intro _ _ c ns nss attrs h; exact absurd h (hv _ _ _ _)
  | hobj c ns nss attrs ih1 ih2 =>
    intro ht hn c' ns' nss' attrs' he hne hnm hf g hg
    cases he
    have hb := fastkml_boolOk c
    simp only [boolOk, Bool.and_eq_true] at hb
    have hgo := hb.1
    have hcoords : hasItem fastkml c (s% "kml_coordinates") .xmlSub (coordsCls fastkml) = true →
        (viewOf (s% "kml_coordinates") (infoAttrs fastkml attrs)).info.truthy = .ok true →
        ∀ l, coordsOf (viewOf (s% "kml_coordinates") (infoAttrs fastkml attrs)).v = .ok l →
          l ≠ [] ∧ FineLine l := by
      intro h htr l hl
      rw [viewOf_infoAttrs] at htr hl
      rcases sub_cases ht h with hno | ⟨d, ns', nss', as, hv, hd⟩
      · rw [hno] at htr; simp [info, Info.plain] at htr
      · have hnv : NoNaN (attrOf (s% "kml_coordinates") attrs) := hn.attr (attrOf_mem rfl (by rw [hv]; simp))
        rw [hv] at htr hl hnv
        exact ⟨truthy_coords hl hd htr, coordsOf_fine hnv hl⟩
    rw [geometry_obj] at hg
    cases hk : (fastkml.info c).geom <;> rw [hk] at hg hne hnm hf <;> simp only [geomOk, hk] at hgo <;>
      simp only [geomStep] at hg <;> try (simp [flat] at hf; done)
    case multi => exact absurd rfl hnm
    case point =>
      refine ⟨?_, (fun h => by cases h), (fun h => by cases h), (fun h => by cases h), (fun h => by cases h)⟩
      split at hg
      · cases hg
      · cases hg
      · rename_i htr
        split at hg
        · cases hg
        · rename_i l hl
          obtain ⟨h1, h2⟩ := hcoords hgo htr l hl
          cases l with
          | nil => exact absurd rfl h1
          | cons p r =>
            simp only [pointGeom, mkPoint] at hg
            split at hg
            · simp only [Except.ok.injEq, Option.some.injEq] at hg
              rename_i hp
              split at hp
              · rename_i hl
                simp only [Except.ok.injEq] at hp; subst hp; subst hg
                simp only [Normal]
                exact ⟨hl, h2 _ (by simp)⟩
              · cases hp
            · cases hg
    case lineString =>
      refine (fun h => ⟨h.1, (fun h => by cases h), (fun h => by cases h), fun _ => h.2, (fun h => by cases h)⟩ : (Normal g ∧ ∃ l, g = .lineString l) → _) ?_
      split at hg
      · cases hg
      · cases hg
      · rename_i htr
        split at hg
        · cases hg
        · rename_i l hl
          obtain ⟨h1, h2⟩ := hcoords hgo htr l hl
          cases hm : mkLine l with
          | error e => rw [hm] at hg; cases e <;> simp [catchDim] at hg
          | ok r =>
            rw [hm] at hg
            simp only [catchDim, Option.map_some, Except.ok.injEq, Option.some.injEq] at hg
            subst hg
            exact ⟨by simp only [Normal]; exact mkLine_normalLine hm h1 h2, _, rfl⟩
    case linearRing =>
      split at hg
      · cases hg
      · cases hg
      · rename_i htr
        split at hg
        · cases hg
        · rename_i l hl
          obtain ⟨h1, h2⟩ := hcoords hgo htr l hl
          cases hm : mkRing l with
          | error e => rw [hm] at hg; cases e <;> simp [catchDim] at hg
          | ok r =>
            rw [hm] at hg
            simp only [catchDim, Option.map_some, Except.ok.injEq, Option.some.injEq] at hg
            subst hg
            exact ⟨by simp only [Normal]; exact mkRing_normalRing hm h1 h2, fun _ => ⟨_, rfl⟩, fun _ => ⟨_, rfl⟩, (fun h => by cases h), (fun h => by cases h)⟩
    case boundary =>
      split at hg
      · cases hg
      · cases hg
      · rename_i htr
        rw [viewOf_infoAttrs] at htr hg
        rcases sub_cases ht hgo with hno | ⟨d, ns', nss', as, hv, hd⟩
        · rw [hno] at htr; simp [info, Info.plain] at htr
        · simp only [decide_eq_true_eq] at hd
          have hm := attrOf_mem hv (by simp)
          have := ih1 _ _ hm ((typed_obj.mp ht).2.2.1 _ _ hm) (hn.attr hm) d ns' nss' as rfl
            (by rw [hd]; simp) (by rw [hd]; simp) (by rw [hd]; rfl) g (by rw [hv] at hg; exact hg)
          exact ⟨this.1, fun _ => this.2.2.1 hd, (fun h => by cases h), (fun h => by cases h), (fun h => by cases h)⟩
    case polygon =>
      refine (fun h => ⟨h.1, (fun h => by cases h), (fun h => by cases h), (fun h => by cases h), fun _ => h.2⟩ : (Normal g ∧ ∃ s hs, g = .polygon s hs) → _) ?_
      rw [Bool.and_eq_true] at hgo
      split at hg
      · cases hg
      · cases hg
      · rename_i htr
        split at hg
        · cases hg
        · rename_i l hl
          split at hg
          · cases hg
          · cases hg
          · rename_i shell gs hsh hgs
            split at hg
            · cases hg
            · rename_i holes hho
              simp only [Except.ok.injEq, Option.some.injEq] at hg
              subst hg
              rw [viewOf_infoAttrs] at hl htr
              have hring : ∀ {l r : List (Pt F)}, liftGeo (mkRing l) = .ok r → mkRing l = .ok r := by
                intro l r h
                cases hm : mkRing l with
                | ok k => rw [hm] at h; simpa [liftGeo] using h
                | error e => rw [hm] at h; cases e <;> simp [liftGeo] at h
              refine ⟨?_, _, _, rfl⟩
              simp only [Normal]
              constructor
              · rcases sub_cases ht hgo.1 with hno | ⟨d, ns', nss', as, hv, hd⟩
                · rw [hno] at htr; simp [info, Info.plain] at htr
                · simp only [Bool.and_eq_true, decide_eq_true_eq] at hd
                  have hm := attrOf_mem hv (by simp)
                  have := ih1 _ _ hm ((typed_obj.mp ht).2.2.1 _ _ hm) (hn.attr hm) d ns' nss' as rfl
                    (by rw [hd.1]; simp) (by rw [hd.1]; simp) (by rw [hd.1]; rfl) _ (by rw [hv] at hl; exact hl)
                  simp only [Normal] at this
                  exact mkRing_normalRing (hring hsh) this.1.nonempty fun p hp => (this.1.points p hp).2
              · intro h hh
                obtain ⟨m, hm, hr⟩ := ringsOf_mem hho h hh
                obtain ⟨i, hi, he⟩ := someGeoms_mem hgs _ hm
                rw [viewOf_infoAttrs] at hi
                obtain ⟨ls, hls, hw⟩ := list_cases ht hgo.2
                rw [hls, infoElems_list, List.mem_map] at hi
                obtain ⟨w, hwl, rfl⟩ := hi
                obtain ⟨d, ns', nss', as, hv, hd⟩ := hw w hwl
                simp only [decide_eq_true_eq] at hd
                have hma := attrOf_mem hls (by simp)
                have := ih2 _ ls hma w hwl (typed_member ht hls hwl) ((hn.attr hma).member hwl) d ns' nss' as hv
                  (by rw [hd]; simp) (by rw [hd]; simp) (by rw [hd]; rfl) _ he
                simp only [Normal] at this
                exact mkRing_normalRing hr this.1.nonempty fun p hp => (this.1.points p hp).2
        · cases hg


end Verif
