import Verif.Classes
import Verif.Lemmas.Py

/-!
# C13: the registry
-/

set_option linter.unusedSectionVars false
set_option linter.unusedSimpArgs false

namespace Verif

variable {C : Type} [DecidableEq C]

/-- The items registered for a class by a sequence of calls, in order. -/
def Spec.registeredFor (calls : List (C × Item C)) (c : C) : List (Item C) :=
  (calls.filter fun p => decide (p.1 = c)).map Prod.snd

/-- The registry after a sequence of `register` calls. -/
def Spec.afterCalls (r : Registry C) (calls : List (C × Item C)) : Registry C :=
  calls.foldl (fun r p => r.register p.1 p.2) r

theorem dget_afterCalls (r : Registry C) (calls : List (C × Item C)) (c : C) :
    (dget c (Spec.afterCalls r calls)).getD [] = (dget c r).getD [] ++ Spec.registeredFor calls c := by
  induction calls generalizing r with
  | nil => simp [Spec.afterCalls, Spec.registeredFor]
  | cons p calls ih =>
    have := ih (r.register p.1 p.2)
    simp only [Spec.afterCalls, List.foldl_cons] at this ⊢
    rw [this]
    unfold Registry.register Spec.registeredFor
    rw [dget_dset]
    by_cases h : p.1 = c
    · subst h; simp
    · simp [h]

theorem get_flatMap (r : Registry C) (mro : List C) :
    r.get mro = mro.reverse.flatMap fun c => (dget c r).getD [] := by
  unfold Registry.get
  have : ∀ (l : List C) (acc : List (Item C)),
      l.foldl (fun items parent => items ++ (dget parent r).getD []) acc =
        acc ++ l.flatMap fun c => (dget c r).getD [] := by
    intro l
    induction l with
    | nil => simp
    | cons a l ih => intro acc; simp [ih]
  simpa using this mro.reverse []

/-- **C13.** After any sequence of `register` calls, `get` is the concatenation,
from the root ancestor to the class, of the items registered for each class, in
the order of registration. -/
theorem C13_get (calls : List (C × Item C)) (mro : List C) :
    (Spec.afterCalls [] calls).get mro = mro.reverse.flatMap (Spec.registeredFor calls) := by
  rw [get_flatMap]
  congr 1
  funext c
  rw [dget_afterCalls]
  simp [dget]

/-- **C13.** Registering an item for `c` leaves `get` of a class that does not
inherit from `c` unchanged. -/
theorem C13_unrelated (calls : List (C × Item C)) (c : C) (it : Item C) (mro : List C) (h : c ∉ mro) :
    (Spec.afterCalls [] (calls ++ [(c, it)])).get mro = (Spec.afterCalls [] calls).get mro := by
  rw [C13_get, C13_get, List.flatMap_def, List.flatMap_def]
  congr 1
  refine List.map_congr_left fun a ha => ?_
  have : c ≠ a := fun e => h (by rw [e]; exact List.mem_reverse.mp ha)
  simp [Spec.registeredFor, List.filter_append, this]

/-- **C13.** Registering an item for `c` inserts it, for `c` and its subclasses, at
the end of the block of `c`: after the items of `c` and its ancestors and before
those of the more derived classes. -/
theorem C13_inserts (calls : List (C × Item C)) (c : C) (it : Item C) (sub anc : List C)
    (h : (sub ++ c :: anc).Nodup) :
    (Spec.afterCalls [] calls).get (sub ++ c :: anc) =
      (Spec.afterCalls [] calls).get (c :: anc) ++ sub.reverse.flatMap (Spec.registeredFor calls) ∧
    (Spec.afterCalls [] (calls ++ [(c, it)])).get (sub ++ c :: anc) =
      (Spec.afterCalls [] calls).get (c :: anc) ++ [it] ++ sub.reverse.flatMap (Spec.registeredFor calls) := by
  have hne : ∀ l : List C, c ∉ l → l.flatMap (Spec.registeredFor (calls ++ [(c, it)])) =
      l.flatMap (Spec.registeredFor calls) := by
    intro l hl
    rw [List.flatMap_def, List.flatMap_def]
    congr 1
    refine List.map_congr_left fun a ha => ?_
    have : c ≠ a := fun e => hl (by rw [e]; exact ha)
    simp [Spec.registeredFor, List.filter_append, this]
  rw [List.nodup_append] at h
  obtain ⟨_, h2, h3⟩ := h
  rw [List.nodup_cons] at h2
  have h4 : c ∉ sub := fun hc => h3 c hc c (by simp) rfl
  simp only [C13_get, List.reverse_append, List.reverse_cons, List.flatMap_append, List.append_assoc,
    List.flatMap_cons, List.flatMap_nil, List.append_nil]
  rw [hne _ (by simpa using h2.1), hne _ (by simpa using h4)]
  simp [Spec.registeredFor, List.filter_append]

/-- The registry of fastkml is the result of the registrations at import time, so
the theorems apply to it. -/
theorem C13_fastkml (c : Cls) :
    fastkml.itemsOf c = (fastkml.info c).mro.reverse.flatMap (Spec.registeredFor registrations) := by
  have h : fastkml.reg = Spec.afterCalls [] registrations := by
    have h : ∀ l : List (Cls × Item Cls), Spec.afterCalls [] l = l.foldl (fun r p => Registry.register r p.1 p.2) [] :=
      fun l => rfl
    rw [h]
    simp only [fastkml, kmlRegistry]
  unfold Lib.itemsOf
  rw [h, C13_get]

/-- Registering an item in the fastkml registry for `_Feature` changes what is
registered for a `Placemark` but not for a `Point`. -/
example : (fastkml.info .Placemark).mro.Nodup ∧ Cls._Feature ∈ (fastkml.info .Placemark).mro ∧
    Cls._Feature ∉ (fastkml.info .Point).mro ∧
    Spec.registeredFor registrations .Placemark ≠ [] ∧ Spec.registeredFor registrations ._Feature ≠ [] := by
  decide +kernel

end Verif
