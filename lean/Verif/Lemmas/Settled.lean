import Verif.Spec.Reopen
import Verif.Lemmas.Stable

/-!
# Objects as they are read

An object that was read is canonical, except that it can have empty objects in it.
-/

set_option linter.unusedSectionVars false
set_option linter.unusedSimpArgs false

namespace Verif
open Spec

variable {F : Type} [PyExt F]

/-- The conditions on one object: those of `Canonical`, but for empty objects. -/
structure Settled (N : NsMap) (c : Cls) (nss : NsMap) (attrs : List (Str × Val Cls F)) : Prop where
  nss : nss = N
  layout : attrs.map Prod.fst =
    (if (fastkml.info c).special = .track then [s% "track_items"] else []) ++ (fastkml.info c).slots.map Prod.fst
  unregistered : ∀ a n, (a, n) ∈ (fastkml.info c).slots → (∀ it ∈ fastkml.itemsOf c, it.attr ≠ a) →
    attr a attrs = unset n
  scalar : ∀ it ∈ fastkml.itemsOf c, scalar it.get = true → ∀ n, (it.attr, n) ∈ (fastkml.info c).slots →
    canonScalar it.get n (attr it.attr attrs)
  grouped : ∀ it ∈ fastkml.itemsOf c, place it.get = .objects → ∀ l, attr it.attr attrs = .list l →
    regroup it.classes l = l

def AllSettled (N : NsMap) (v : Val Cls F) : Prop := Everywhere (fun c _ nss attrs => Settled N c nss attrs) v

theorem regroup_filter {cs : List (PyType Cls)} (p : Val Cls F → Bool) (l : List (Val Cls F)) :
    regroup cs (l.filter p) = (regroup cs l).filter p := by
  unfold regroup
  rw [List.filter_flatMap]
  apply flatMap_congr_mem
  intro t _
  rw [List.filter_filter, List.filter_filter]
  apply List.filter_congr
  intro v _
  exact Bool.and_comm _ _

theorem pruneAttrs_eq (c : Cls) (l : List (Str × Val Cls F)) :
    pruneAttrs c l = l.map fun p => (p.1, kept c p.2 (prune p.2)) := by
  induction l with
  | nil => rfl
  | cons p l ih => obtain ⟨a, v⟩ := p; simp only [pruneAttrs, List.map_cons, ih]

theorem pruneList_eq (l : List (Val Cls F)) : pruneList l = (l.filter (nonEmpty fastkml)).map prune := by
  induction l with
  | nil => rfl
  | cons v l ih =>
    simp only [pruneList, List.filter_cons]
    split <;> simp [ih]

theorem kept_plain {c : Cls} {v y : Val Cls F} (h1 : ∀ c ns nss as, v ≠ .obj c ns nss as) (h2 : ∀ l, v ≠ .list l) :
    kept c v y = v := by
  cases v <;> first | exact absurd rfl (h1 _ _ _ _) | exact absurd rfl (h2 _) | rfl

theorem listTruthy_iff {c : Cls} {it : Item Cls} (hit : it ∈ fastkml.itemsOf c) (hg : it.get = .xmlSubList) {n : Norm}
    (hn : (it.attr, n) ∈ (fastkml.info c).slots) : n = .listTruthy ↔ c = .ExtendedData ∨ c = .MultiTrack := by
  have : ∀ c ∈ Cls.all, ∀ it ∈ fastkml.itemsOf c, it.get = .xmlSubList → ∀ p ∈ (fastkml.info c).slots, p.1 = it.attr →
      decide (p.2 = .listTruthy) = decide (c = .ExtendedData ∨ c = .MultiTrack) := by decide +kernel
  have := this c (Cls.mem_all c) it hit hg _ hn rfl
  exact decide_eq_decide.mp this

/-- A cycle removes the empty objects. -/
theorem cycle_settled {P : Pt F → Bool} {N : NsMap} (v : Val Cls F) :
    typed fastkml P v = true → AllSettled N v → (∃ c ns nss attrs, v = .obj c ns nss attrs) →
    cycle fastkml ⟨none, .normal⟩ N v = prune v := by
  induction v using Val.objInd with
  | hother v hv => rintro _ _ ⟨c, ns, nss, attrs, h⟩; exact absurd h (hv _ _ _ _)
  | hobj c ns nss attrs ih1 ih2 =>
    intro ht hc _
    have hR := fastkml_readOk c
    have hty := typed_obj.mp ht
    have K : Settled N c nss attrs := hc c ns nss attrs .self
    have hnd : (attrs.map Prod.fst).Nodup := K.layout ▸ nodup_layout hR
    rw [cycle_obj, prune, pruneAttrs_eq, K.nss, cycleStep_eq]
    congr 1
    have hattrs : (attrs.map fun p => (p.1, kept c p.2 (prune p.2))) =
        (attrs.map Prod.fst).map fun a => (a, kept c (attrOf a attrs) (prune (attrOf a attrs))) := by
      conv => lhs; rw [attrs_eq hnd]
      rw [List.map_map]
      rfl
    rw [hattrs, K.layout, List.map_append]
    congr 1
    · split
      · rename_i hsp
        have hrows := hty.2.1 hsp
        simp only [List.map_cons, List.map_nil, List.cons.injEq, Prod.mk.injEq, true_and, and_true]
        unfold trackOk at hrows
        rw [attr_eq] at hrows
        unfold rows
        rw [attr_eq]
        cases hv : attrOf (s% "track_items") attrs <;> rw [hv] at hrows <;> simp at hrows
        rename_i l
        have : (rereadRow none : TrackItem F → TrackItem F) = id := funext rereadRow_none
        simp only [kept, prune, this, List.map_id]
      · rfl
    · rw [List.map_map]
      apply List.map_congr_left
      rintro ⟨a, n⟩ hs
      simp only [Function.comp, Prod.mk.injEq, true_and]
      by_cases hit : ∃ it ∈ fastkml.itemsOf c, it.attr = a
      · obtain ⟨it, hit, rfl⟩ := hit
        rw [cycleAttr_item hR hit]
        have hk := hty.1 it hit
        have hcl : ∀ w, (it.attr, w) ∈ attrs → AllSettled N w := fun w hw => everywhere_attr hc hw
        split
        · rename_i hpl
          have hg : it.get = .xmlSub := by revert hpl; cases it.get <;> simp [place]
          simp only [kindOk, hg] at hk
          cases hv : attrOf it.attr attrs <;> rw [hv] at hk <;> simp [isInst] at hk
          · simp [nonEmpty, truthy, info, Info.plain, kept]
          · have hm := attrOf_mem hv (by simp)
            simp only [kept, ih1 _ _ hm (hv ▸ typed_attrOf ht _) (hcl _ hm) ⟨_, _, _, _, rfl⟩]
        · rename_i hpl
          have hg : it.get = .xmlSubList := by revert hpl; cases it.get <;> simp [place]
          simp only [kindOk, hg] at hk
          cases hv : attrOf it.attr attrs <;> rw [hv] at hk <;> simp at hk
          rename_i l
          have h2 := K.grouped it hit hpl l hv
          have hm : (it.attr, .list l) ∈ attrs := attrOf_mem hv (by simp)
          have hob : ∀ w ∈ l, ∃ c ns nss attrs, w = .obj c ns nss attrs := by
            intro w hw
            obtain ⟨d, x, y, z, h, _⟩ := obj_of_inst (hk w hw)
            exact ⟨d, x, y, z, h⟩
          have heq : (l.filter (nonEmpty fastkml)).map (cycle fastkml ⟨none, .normal⟩ N) =
              (l.filter (nonEmpty fastkml)).map prune := by
            apply List.map_congr_left
            intro w hw
            have hw := (List.mem_filter.mp hw).1
            exact ih2 _ _ hm w hw (typed_member ht hv hw) (everywhere_member (hcl _ hm) hw) (hob w hw)
          rw [cycleMembers_list, regroup_map (fun t v => cycle_isInst fastkml _ N [t] v), regroup_filter, h2, heq]
          simp only [prune, kept, pruneList_eq, listTruthy_iff hit hg hs]
        · rename_i hp1 hp2
          by_cases hg : it.get = .coordinates
          · rw [if_pos hg]
            simp only [kindOk, hg] at hk
            cases hv : attrOf it.attr attrs <;> rw [hv] at hk <;> simp at hk
            rename_i l
            have : (fun c : Pt F => c.map (roundTo none)) = id := funext map_roundTo_none
            simp only [rereadCoords, kept, prune, this, List.map_id]
          · rw [if_neg hg]
            by_cases hs' : scalar it.get = true
            · have hr := reread_canon (P := P) (K.scalar it hit hs' n hs) hs' hk
                ((fastkml_cycleOk c).norm _ n hs it hit rfl)
              rw [attr_eq] at hr
              rw [kept_plain]
              · exact hr
              · intro c ns nss as hv
                rw [hv] at hk
                revert hk hs'; simp only [kindOk]; cases it.get <;> simp [scalar, place]
              · intro l hv
                rw [hv] at hk
                revert hk hs'; simp only [kindOk]; cases it.get <;> simp [scalar, place]
            · exfalso
              have hsl := hR.slots it hit
              have : it.get = .subDtList ∨ it.get = .coordsList := by
                revert hs' hg hp1 hp2; cases it.get <;> simp [scalar, place]
              rcases slotOk_iff hsl with ⟨n', _, h⟩ | ⟨hsp, h⟩
              · revert h; rcases this with h | h <;> simp [h, normOk]
              · have hk := hR.known
                rw [List.nodup_append] at hk
                refine hk.2.2 it.attr ?_ it.attr (List.mem_map_of_mem (f := Prod.fst) hs) rfl
                rw [hsp]
                rcases h with ⟨h, _⟩ | ⟨h, _⟩ <;> simp_all [specialArgs]
      · have hna : ∀ it ∈ fastkml.itemsOf c, it.attr ≠ a := fun it hi h => hit ⟨it, hi, h⟩
        have h := K.unregistered a n hs hna
        have h : attrOf a attrs = unset n := h
        rw [h]
        unfold cycleAttr
        rw [List.find?_eq_none.mpr (by simpa using hna)]
        cases n <;> simp [unset, prune, kept, pruneList]

end Verif
