import Verif.Helpers
import Verif.Lemmas.Py

/-!
# Namespace mappings
-/

set_option linter.unusedSectionVars false
set_option linter.unusedSimpArgs false

namespace Verif

section
variable {α β : Type} [DecidableEq α]

theorem dset_append_head {k : α} {v v' : β} {p d : List (α × β)} (h : k ∉ p.map Prod.fst) :
    dset k v (p ++ (k, v') :: d) = p ++ (k, v) :: d := by
  induction p with
  | nil => simp [dset]
  | cons q p ih =>
    obtain ⟨a, b⟩ := q
    simp only [List.map_cons, List.mem_cons, not_or] at h
    simp [dset, Ne.symm h.1, ih h.2]

/-- Updating with a dictionary that begins with the same keys gives that
dictionary. -/
theorem dupdate_prefix {p d e : List (α × β)} (hn : ((p ++ e).map Prod.fst).Nodup)
    (h : d.map Prod.fst <+: e.map Prod.fst) :
    e.foldl (fun acc q => dset q.1 q.2 acc) (p ++ d) = p ++ e := by
  induction e generalizing p d with
  | nil =>
    have : d = [] := by simpa using h
    subst this; simp
  | cons q e ih =>
    obtain ⟨k, v⟩ := q
    have hk : k ∉ p.map Prod.fst := by
      simp only [List.map_append, List.map_cons, List.nodup_append] at hn
      intro hm
      exact hn.2.2 k hm k (by simp) rfl
    have hn' : (((p ++ [(k, v)]) ++ e).map Prod.fst).Nodup := by simpa using hn
    cases d with
    | nil =>
      rw [List.foldl_cons, List.append_nil, dset_append_of_not_mem hk]
      have := ih (p := p ++ [(k, v)]) (d := []) hn' (by simp)
      simpa using this
    | cons q' d =>
      obtain ⟨k', v'⟩ := q'
      simp only [List.map_cons, List.cons_prefix_cons] at h
      obtain ⟨rfl, h⟩ := h
      rw [List.foldl_cons, dset_append_head hk]
      have := ih (p := p ++ [(k', v)]) (d := d) hn' h
      simpa using this

theorem keys_dupdate_prefix (d e : List (α × β)) : d.map Prod.fst <+: (dupdate d e).map Prod.fst := by
  unfold dupdate
  induction e generalizing d with
  | nil => simp
  | cons q e ih =>
    rw [List.foldl_cons]
    refine List.IsPrefix.trans ?_ (ih _)
    rw [keys_dset]
    split
    · exact List.prefix_refl _
    · exact List.prefix_append _ _

theorem dupdate_idem {d e : List (α × β)} (h : (d.map Prod.fst).Nodup) :
    dupdate d (dupdate d e) = dupdate d e := by
  have := dupdate_prefix (p := []) (d := d) (e := dupdate d e) (by simpa using dupdate_nodup h)
    (keys_dupdate_prefix d e)
  exact this

end

theorem defaultNameSpaces_nodup : (defaultNameSpaces.map Prod.fst).Nodup := by decide

/-- Merging twice is merging once. -/
theorem mergeNs_idem (nss : NsMap) : mergeNs (mergeNs nss) = mergeNs nss :=
  dupdate_idem defaultNameSpaces_nodup

theorem mergeNs_nodup (nss : NsMap) : ((mergeNs nss).map Prod.fst).Nodup :=
  dupdate_nodup defaultNameSpaces_nodup

end Verif
