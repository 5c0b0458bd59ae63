import Verif.Spec.Names
import Verif.Lemmas.Fastkml

/-!
# Tags: namespace and local name determine each other
-/

set_option linter.unusedSectionVars false
set_option linter.unusedSimpArgs false

namespace Verif

open Spec

variable {C F : Type} [DecidableEq C]

theorem nsGet_form {N : NsMap} (h : NsOk N) (id : Str) : NsForm (nsGet N id) := by
  unfold nsGet
  cases hd : dget id N with
  | none => exact Or.inl rfl
  | some v => exact h _ (dget_mem hd)

theorem nsOk_default : NsOk defaultNameSpaces := by
  intro p hp
  simp only [defaultNameSpaces, List.mem_cons, List.not_mem_nil, or_false] at hp
  rcases hp with rfl | rfl | rfl
  · exact Or.inr ⟨s% "{http://www.opengis.net/kml/2.2", rfl⟩
  · exact Or.inr ⟨s% "{http://www.w3.org/2005/Atom", rfl⟩
  · exact Or.inr ⟨s% "{http://www.google.com/kml/ext/2.2", rfl⟩

theorem nsOk_dset {N : NsMap} (h : NsOk N) {k v : Str} (hv : NsForm v) : NsOk (dset k v N) := by
  intro p hp
  induction N with
  | nil => simp [dset] at hp; subst hp; exact hv
  | cons q N ih =>
    obtain ⟨k', v'⟩ := q
    simp only [dset] at hp
    split at hp
    · rcases List.mem_cons.mp hp with rfl | hp
      · exact hv
      · exact h p (by simp [hp])
    · rcases List.mem_cons.mp hp with rfl | hp
      · exact h _ (by simp)
      · exact ih (fun q hq => h q (by simp [hq])) hp

theorem nsOk_merge {nss : NsMap} (h : NsOk nss) : NsOk (mergeNs nss) := by
  unfold mergeNs dupdate
  have : ∀ (e d : NsMap), NsOk e → NsOk d → NsOk (e.foldl (fun acc p => dset p.1 p.2 acc) d) := by
    intro e
    induction e with
    | nil => intro d _ hd; exact hd
    | cons p e ih =>
      intro d he hd
      exact ih _ (fun q hq => he q (by simp [hq])) (nsOk_dset hd (he p (by simp)))
  exact this nss _ h nsOk_default

theorem localOf_append {ns l : Str} (hns : NsForm ns) (hl : '}' ∉ l) : localName (ns ++ l) = l := by
  unfold localName
  have hall : ∀ c ∈ l.reverse, (c != '}') = true := by
    intro c hc
    have : c ≠ '}' := by rintro rfl; exact hl (by simpa using hc)
    simpa using this
  rw [List.reverse_append, List.takeWhile_append_of_pos hall]
  rcases hns with rfl | ⟨u, rfl⟩
  · simp
  · rw [List.reverse_append]; simp

theorem tag_inj {ns ns' l l' : Str} (hns : NsForm ns) (hns' : NsForm ns') (hl : '}' ∉ l) (hl' : '}' ∉ l')
    (h : ns ++ l = ns' ++ l') : ns = ns' ∧ l = l' := by
  have h2 : l = l' := by rw [← localOf_append hns hl, h, localOf_append hns' hl']
  subst h2
  exact ⟨List.append_cancel_right h, rfl⟩

/-- The names of children of a class are distinct and contain no brace. -/
def namesOk (L : Lib C) (c : C) : Bool :=
  decide (((L.itemsOf c).flatMap (localNames L)).Nodup) &&
  ((L.itemsOf c).all fun it => decide ('}' ∉ it.node) && (localNames L it).all fun l => decide ('}' ∉ l)) &&
  decide ((((L.itemsOf c).filter fun it => decide (place it.get = .attr)).map (·.node)).Nodup) &&
  decide (((L.itemsOf c).filter fun it => decide (place it.get = .text)).length ≤ 1) &&
  ((L.itemsOf c).all fun it => decide (it.nsIds ≠ []))

/-- The same as a structure. -/
structure NamesOk (L : Lib C) (c : C) : Prop where
  nodup : ((L.itemsOf c).flatMap (localNames L)).Nodup
  node : ∀ it ∈ L.itemsOf c, '}' ∉ it.node
  names : ∀ it ∈ L.itemsOf c, ∀ l ∈ localNames L it, '}' ∉ l
  attrs : (((L.itemsOf c).filter fun it => decide (place it.get = .attr)).map (·.node)).Nodup
  text : ((L.itemsOf c).filter fun it => decide (place it.get = .text)).length ≤ 1
  ids : ∀ it ∈ L.itemsOf c, it.nsIds ≠ []

theorem namesOk_iff {L : Lib C} {c : C} (h : namesOk L c = true) : NamesOk L c := by
  simp only [namesOk, Bool.and_eq_true, decide_eq_true_eq, List.all_eq_true] at h
  obtain ⟨⟨⟨⟨h1, h2⟩, h3⟩, h4⟩, h5⟩ := h
  exact ⟨h1, fun it hit => (h2 it hit).1, fun it hit => (h2 it hit).2, h3, h4, h5⟩

theorem fastkml_namesOk (c : Cls) : NamesOk fastkml c := by
  have : ∀ c ∈ Cls.all, namesOk fastkml c = true := by decide +kernel
  exact namesOk_iff (this c (Cls.mem_all c))

theorem flatMap_nodup_inj {α β : Type} {f : α → List β} {l : List α} (h : (l.flatMap f).Nodup) {a b : α}
    {x : β} (ha : a ∈ l) (hb : b ∈ l) (hxa : x ∈ f a) (hxb : x ∈ f b) : a = b := by
  induction l with
  | nil => cases ha
  | cons c l ih =>
    rw [List.flatMap_cons, List.nodup_append] at h
    rcases List.mem_cons.mp ha with rfl | ha' <;> rcases List.mem_cons.mp hb with rfl | hb'
    · rfl
    · exact absurd rfl (h.2.2 x hxa x (List.mem_flatMap.mpr ⟨b, hb', hxb⟩))
    · exact absurd rfl (h.2.2 x hxb x (List.mem_flatMap.mpr ⟨a, ha', hxa⟩))
    · exact ih h.2.1 ha' hb'

/-- A tag belongs to one item only. -/
theorem item_of_tag {L : Lib C} {c : C} (hN : NamesOk L c) {ns ns' : Str} (hns : NsForm ns) (hns' : NsForm ns')
    {it it' : Item C} (hit : it ∈ L.itemsOf c) (hit' : it' ∈ L.itemsOf c) {l l' : Str}
    (hl : l ∈ localNames L it) (hl' : l' ∈ localNames L it') (h : ns ++ l = ns' ++ l') :
    it = it' ∧ l = l' ∧ ns = ns' := by
  obtain ⟨h1, h2⟩ := tag_inj hns hns' (hN.names it hit l hl) (hN.names it' hit' l' hl') h
  subst h2
  exact ⟨flatMap_nodup_inj hN.nodup hit hit' hl hl', rfl, h1⟩

end Verif
