import Verif.Spec.Empty
import Verif.Lemmas.Eq
import Verif.Lemmas.Make
import Verif.Props.Cycle

/-!
# C53: empty objects
-/

set_option linter.unusedSectionVars false
set_option linter.unusedSimpArgs false

namespace Verif

open Spec

variable {F : Type} [PyExt F]

theorem anyE_true {l : List (Except Err Bool)} {b : Bool} (h : anyE l = .ok b) : b = true ↔ .ok true ∈ l := by
  induction l with
  | nil => cases h; simp
  | cons x l ih =>
    cases x with
    | error e => cases h
    | ok y =>
      cases y with
      | true => cases h; simp
      | false => simp only [anyE] at h; simp [ih h]

/-- What a rule says about the attributes. -/
def RuleSays (T : Val Cls F → Prop) (g : Option (Geo F)) (as : List (Str × Val Cls F)) : BoolRule → Prop
  | .always => True
  | .allTruthy l => ∀ a ∈ l, T (attr a as)
  | .anyTruthy l => ∃ a ∈ l, T (attr a as)
  | .allNotNone l => ∀ a ∈ l, IsSet as a
  | .anyNotNone l => ∃ a ∈ l, IsSet as a
  | .anyElem a => ∃ l w, attr a as = .list l ∧ w ∈ l ∧ T w
  | .geometry => ∃ k, g = some k ∧ k.nonEmpty = true

theorem truthy_rule {c : Cls} {ns : Str} {nss : NsMap} {as : List (Str × Val Cls F)} {b : Bool}
    (h : truthy fastkml (.obj c ns nss as) = .ok b) :
    b = true ↔ RuleSays (truthy fastkml · = .ok true) (geometry fastkml (.obj c ns nss as)).toOption.join as
      (fastkml.info c).bool := by
  have hset : ∀ a, (attr a as).notNone = true ↔ IsSet as a := by
    intro a
    simp only [IsSet]
    cases attr a as <;> simp [Val.notNone]
  have hv : ∀ a, viewOf a (infoAttrs fastkml as) = ⟨attr a as, info fastkml (attr a as), infoElems fastkml (attr a as)⟩ :=
    fun a => viewOf_infoAttrs fastkml a as
  simp only [truthy, info, infoStep, boolStep] at h
  simp only [RuleSays]
  cases hr : (fastkml.info c).bool with
  | always => rw [hr] at h; cases h; simp [RuleSays]
  | allTruthy l =>
    rw [hr] at h
    simp only at h
    cases b with
    | true => simpa [hv, truthy] using allE_true.mp h
    | false =>
      simp only [Bool.false_eq_true, false_iff]
      intro hh
      have : allE (l.map fun a => (viewOf a (infoAttrs fastkml as)).info.truthy) = .ok true :=
        allE_true.mpr (by simpa [hv, truthy] using hh)
      rw [this] at h; cases h
  | anyTruthy l =>
    rw [hr] at h
    simp only at h
    rw [anyE_true h]
    simp [hv, truthy, eq_comm]
  | allNotNone l => rw [hr] at h; cases h; simp [hv, hset]
  | anyNotNone l => rw [hr] at h; cases h; simp [hv, hset]
  | anyElem a =>
    rw [hr] at h
    simp only at h
    rw [anyE_true h, hv]
    simp only
    constructor
    · intro hm
      obtain ⟨i, hi, he⟩ := List.mem_map.mp hm
      cases ha : attr a as <;> rw [ha] at hi <;> try (simp [infoElems] at hi; done)
      rename_i l
      rw [infoElems_list] at hi
      obtain ⟨w, hw, rfl⟩ := List.mem_map.mp hi
      exact ⟨l, w, rfl, hw, he⟩
    · rintro ⟨l, w, hl, hw, he⟩
      rw [hl, infoElems_list]
      exact List.mem_map.mpr ⟨info fastkml w, List.mem_map.mpr ⟨w, hw, rfl⟩, he⟩
  | geometry =>
    rw [hr] at h
    rw [geometry_obj]
    simp only at h ⊢
    cases hg : geomStep (fastkml.info c).geom (infoAttrs fastkml as) with
    | error e => rw [hg] at h; cases h
    | ok o =>
      rw [hg] at h
      cases o with
      | none => cases h; simp [Except.toOption]
      | some g => cases h; simp [Except.toOption]

/-- The class has a registered attribute with one of these kinds of content. -/
def hasKind (c : Cls) (a : Str) (gs : List GetFn) : Bool :=
  (fastkml.itemsOf c).any fun it => decide (it.attr = a) && decide (it.get ∈ gs)

theorem hasKind_ok {P : Pt F → Bool} {c : Cls} {ns : Str} {nss : NsMap} {as : List (Str × Val Cls F)}
    (ht : typed fastkml P (.obj c ns nss as) = true) {a : Str} {gs : List GetFn} (h : hasKind c a gs = true) :
    ∃ it, it.get ∈ gs ∧ kindOk P it (attr a as) = true := by
  simp only [hasKind, List.any_eq_true, Bool.and_eq_true, decide_eq_true_eq] at h
  obtain ⟨it, hit, rfl, hg⟩ := h
  exact ⟨it, hg, (typed_obj.mp ht).1 it hit⟩

theorem text_iff {P : Pt F → Bool} {c : Cls} {ns : Str} {nss : NsMap} {as : List (Str × Val Cls F)}
    (ht : typed fastkml P (.obj c ns nss as) = true) {a : Str} (h : hasKind c a [.nodeText, .subText, .attrText] = true) :
    truthy fastkml (attr a as) = .ok true ↔ HasText as a := by
  obtain ⟨it, hg, hk⟩ := hasKind_ok ht h
  simp only [HasText]
  simp only [List.mem_cons, List.not_mem_nil, or_false] at hg
  rcases hg with hg | hg | hg <;> simp only [kindOk, hg] at hk <;> cases hv : attr a as <;>
    rw [hv] at hk <;> simp [truthy, info, Info.plain] at hk ⊢

theorem set_iff {P : Pt F → Bool} {c : Cls} {ns : Str} {nss : NsMap} {as : List (Str × Val Cls F)}
    (ht : typed fastkml P (.obj c ns nss as) = true) {a : Str} (h : hasKind c a [.subDt, .subEnum, .attrEnum] = true) :
    truthy fastkml (attr a as) = .ok true ↔ IsSet as a := by
  obtain ⟨it, hg, hk⟩ := hasKind_ok ht h
  simp only [IsSet]
  simp only [List.mem_cons, List.not_mem_nil, or_false] at hg
  rcases hg with hg | hg | hg <;> simp only [kindOk, hg] at hk <;> cases hv : attr a as <;>
    rw [hv] at hk <;> simp [truthy, info, Info.plain] at hk ⊢

theorem list_iff {P : Pt F → Bool} {c : Cls} {ns : Str} {nss : NsMap} {as : List (Str × Val Cls F)}
    (ht : typed fastkml P (.obj c ns nss as) = true) {a : Str} (h : hasKind c a [.xmlSubList] = true) :
    truthy fastkml (attr a as) = .ok true ↔ HasMember as a := by
  obtain ⟨it, hg, hk⟩ := hasKind_ok ht h
  simp only [HasMember]
  simp only [List.mem_cons, List.not_mem_nil, or_false] at hg
  simp only [kindOk, hg] at hk
  cases hv : attr a as <;> rw [hv] at hk <;> simp [truthy, info, Info.plain] at hk ⊢
  rename_i l
  cases l <;> simp

theorem coords_iff {P : Pt F → Bool} {c : Cls} {ns : Str} {nss : NsMap} {as : List (Str × Val Cls F)}
    (ht : typed fastkml P (.obj c ns nss as) = true) {a : Str} (h : hasKind c a [.coordinates] = true) :
    truthy fastkml (attr a as) = .ok true ↔ ∃ p l, attr a as = .coords (p :: l) := by
  obtain ⟨it, hg, hk⟩ := hasKind_ok ht h
  simp only [List.mem_cons, List.not_mem_nil, or_false] at hg
  simp only [kindOk, hg] at hk
  cases hv : attr a as <;> rw [hv] at hk <;> simp [truthy, info, Info.plain] at hk ⊢
  rename_i l
  cases l <;> simp

theorem items_iff {P : Pt F → Bool} {ns : Str} {nss : NsMap} {as : List (Str × Val Cls F)}
    (ht : typed fastkml P (.obj .Track ns nss as) = true) :
    truthy fastkml (attr (s% "track_items") as) = .ok true ↔ ∃ i l, attr (s% "track_items") as = .items (i :: l) := by
  have hk := (typed_obj.mp ht).2.1 rfl
  simp only [trackOk] at hk
  cases hv : attr (s% "track_items") as <;> rw [hv] at hk <;> simp [truthy, info, Info.plain] at hk ⊢
  rename_i l
  cases l <;> simp

set_option maxRecDepth 4000 in
/-- **C53.** An object with attributes of the documented types is true if and only if it
is not empty in the sense of `Spec.Filled`: the condition of its class on its attributes
and on the truth of its parts. -/
theorem C53_bool {P : Pt F → Bool} {c : Cls} {ns : Str} {nss : NsMap} {as : List (Str × Val Cls F)}
    (ht : typed fastkml P (.obj c ns nss as) = true) {b : Bool} (h : truthy fastkml (.obj c ns nss as) = .ok b) :
    b = true ↔ Filled (fun w => truthy fastkml w = .ok true)
      (geometry fastkml (.obj c ns nss as)).toOption.join as c := by
  rw [truthy_rule h]
  generalize (geometry fastkml (.obj c ns nss as)).toOption.join = g
  clear h
  have tx := fun a => text_iff ht (a := a)
  have st := fun a => set_iff ht (a := a)
  have ls := fun a => list_iff ht (a := a)
  have all1 : ∀ (p : Str → Prop) a, (∀ b ∈ [a], p b) ↔ p a := by simp
  have all2 : ∀ (p : Str → Prop) a b, (∀ x ∈ [a, b], p x) ↔ p a ∧ p b := by simp
  have all4 : ∀ (p : Str → Prop) a b c d, (∀ x ∈ [a, b, c, d], p x) ↔ p a ∧ p b ∧ p c ∧ p d := by simp
  have all5 : ∀ (p : Str → Prop) a b c d e, (∀ x ∈ [a, b, c, d, e], p x) ↔ p a ∧ p b ∧ p c ∧ p d ∧ p e := by simp
  have any2 : ∀ (p : Str → Prop) a b, (∃ x ∈ [a, b], p x) ↔ p a ∨ p b := by simp
  have any3 : ∀ (p : Str → Prop) a b c, (∃ x ∈ [a, b, c], p x) ↔ p a ∨ p b ∨ p c := by simp
  have any4 : ∀ (p : Str → Prop) a b c d, (∃ x ∈ [a, b, c, d], p x) ↔ p a ∨ p b ∨ p c ∨ p d := by simp
  cases c
  all_goals first
    | exact ⟨fun _ => trivial, fun _ => trivial⟩
    | exact Iff.rfl
    | exact all1 _ _
    | exact all2 _ _ _
    | exact all4 _ _ _ _ _
    | exact all5 _ _ _ _ _ _
    | exact any2 _ _ _
    | exact any3 _ _ _ _
    | exact any4 _ _ _ _ _
    | exact (all1 _ _).trans (tx _ (by decide +kernel))
    | exact (all1 _ _).trans (st _ (by decide +kernel))
    | exact (all1 _ _).trans (ls _ (by decide +kernel))
    | exact (all1 _ _).trans (coords_iff ht (by decide +kernel))
    | exact (all1 _ _).trans (items_iff ht)
    | exact (all2 _ _ _).trans (and_congr (tx _ (by decide +kernel)) (tx _ (by decide +kernel)))
    | exact (all2 _ _ _).trans (and_congr (tx _ (by decide +kernel)) (st _ (by decide +kernel)))
    | exact (all2 _ _ _).trans (and_congr (ls _ (by decide +kernel)) (tx _ (by decide +kernel)))
    | exact (any2 _ _ _).trans (or_congr (st _ (by decide +kernel)) (st _ (by decide +kernel)))

/-- **C53.** `bool` is defined for every object with attributes of the documented types and
coordinates of two or three components. -/
theorem C53_defined {c : Cls} {ns : Str} {nss : NsMap} {as : List (Str × Val Cls F)}
    (ht : typed fastkml dim23 (.obj c ns nss as) = true) : ∃ b, truthy fastkml (.obj c ns nss as) = .ok b := by
  cases h : truthy fastkml (.obj c ns nss as) with
  | ok b => exact ⟨b, rfl⟩
  | error x => exact absurd (truthy_typed_error fastkml_boolOk ht h).2 not_typeErr_dim23

/-- **C53.** For other coordinates `bool` may raise `TypeError`, and nothing else. -/
theorem C53_raises {c : Cls} {ns : Str} {nss : NsMap} {as : List (Str × Val Cls F)}
    (ht : typed fastkml anyPt (.obj c ns nss as) = true) {x : Err} (h : truthy fastkml (.obj c ns nss as) = .error x) :
    x = .typeError :=
  (truthy_typed_error fastkml_boolOk ht h).1

/-- A line with a coordinate of four components. -/
example : let line := newObj .LineString [(s% "kml_coordinates",
      newObj .Coordinates [(s% "coords", .coords [[fx 0, fx 0, fx 0, fx 0], [fx 1, fx 1]])])]
    typed fastkml anyPt line = true ∧ truthy fastkml line = .error .typeError := by
  decide +kernel

/-- A full and an empty object of three kinds: a link, a style, and a polygon. -/
example : let icon := newObj .Icon [(s% "href", .str (s% "a.png"))]
    let full := newObj .Style [(s% "styles", .list [newObj .LineStyle [], newObj .IconStyle [(s% "icon", icon)]])]
    let empty := newObj .Style [(s% "styles", .list [newObj .LineStyle [], newObj .IconStyle [(s% "icon", newObj .Icon [])]])]
    typed fastkml anyPt full = true ∧ typed fastkml anyPt empty = true ∧
    truthy fastkml full = .ok true ∧ truthy fastkml empty = .ok false ∧
    truthy fastkml (newObj .TimeSpan [(s% "end", .dt sampleWhen)]) = .ok true ∧
    truthy fastkml (newObj .LatLonBox [(s% "north", .int 0), (s% "south", .int 0), (s% "east", .int 0)]) = .ok false := by
  decide +kernel

end Verif
