import Verif.Spec.Defaults
import Verif.Props.Valid

/-!
# C46, C56: defaults and enumerations of the schemas
-/

set_option linter.unusedSectionVars false
set_option linter.unusedSimpArgs false

namespace Verif

open Spec

variable {F : Type} [PyExt F]

/-- The default is the value of the text. -/
def sameDefault (d : Dflt) (s : Str) : Bool :=
  match d with
  | .none => true
  | .str t => sameStr s t
  | .bool b => sameStr s (if b then s% "1" else s% "0")
  | .int i => decide (decimalOf s = some (i, 0))
  | .enum _ x => sameStr s x
  | .float n k => decide (decimalOf s = some (n, k))
  | .floats _ => false

/-- What is needed of an item. -/
def defaultOk (t : QN) (c : Cls) (it : Item Cls) : Bool :=
  match it.dflt with
  | .none => true
  | d => otherDefaults.any (fun p => decide (p.1 = c) && sameStr p.2 it.attr) ||
    match schemaDefaults t it.get it.node with
    | [s] => sameDefault d s
    | _ => false

set_option maxRecDepth 10000 in
theorem fastkml_defaultOk {c : Cls} {t : QN} (h : elemType c = some t) {it : Item Cls} (hit : it ∈ fastkml.itemsOf c)
    (hs : scalar it.get = true) : defaultOk t c it = true := by
  have key : ∀ c ∈ Cls.all, (match elemType c with
      | none => true
      | some t => (fastkml.itemsOf c).all fun it => !scalar it.get || defaultOk t c it) = true := by decide +kernel
  have := key c (Cls.mem_all c)
  rw [h] at this
  have := List.all_eq_true.mp this it hit
  rw [hs] at this
  exact this

/-- **C46.** When terse output leaves out the value `v` of an attribute because it is the
default, then the schemas declare exactly one default for the child or XML attribute that
is left out, and it denotes `v`.  The exceptions are listed in `otherDefaults`. -/
theorem C46_default {P : Pt F → Bool} {c : Cls} {t : QN} (hty : elemType c = some t) {it : Item Cls}
    (hit : it ∈ fastkml.itemsOf c) (hsc : scalar it.get = true) {v : Val Cls F} (hk : kindOk P it v = true) (hv : v ≠ .none)
    (hx : (c, it.attr) ∉ otherDefaults) (hterse : shown .terse it.dflt.val v = .none) :
    ∃ s, schemaDefaults t it.get it.node = [s] ∧ Denotes s v := by
  have hok := fastkml_defaultOk hty hit hsc
  have heq : scalarEq v it.dflt.val = true := by
    simp only [shown] at hterse
    by_cases h : scalarEq v it.dflt.val = true
    · exact h
    · rw [if_neg h] at hterse; exact absurd hterse hv
  have hother : otherDefaults.any (fun p => decide (p.1 = c) && sameStr p.2 it.attr) = false := by
    rw [← Bool.not_eq_true]
    intro h
    simp only [List.any_eq_true, Bool.and_eq_true, decide_eq_true_eq, sameStr_iff] at h
    obtain ⟨p, hp, h1, h2⟩ := h
    exact hx (by rw [← h1, ← h2]; exact hp)
  have hne : it.dflt ≠ .none := by
    intro hn
    rw [hn] at heq
    cases v <;> simp [Dflt.val, scalarEq, number] at heq hv
  simp only [defaultOk, hother, Bool.false_or] at hok
  have hs : ∃ s, schemaDefaults t it.get it.node = [s] ∧ sameDefault it.dflt s = true := by
    cases hd : it.dflt <;> rw [hd] at hok hne
    · exact absurd rfl hne
    all_goals
      split at hok
      · rename_i s hs; exact ⟨s, hs, hok⟩
      · cases hok
  obtain ⟨s, h1, h2⟩ := hs
  refine ⟨s, h1, ?_⟩
  have hdo := ((fastkml_writeOk c).item it hit).dflt
  cases hd : it.dflt with
  | none => exact absurd hd hne
  | str x =>
    rw [hd] at heq h2
    simp only [sameDefault, sameStr_iff] at h2
    cases v <;> simp [Dflt.val, scalarEq, number] at heq
    simp only [Denotes]; rw [h2, heq]
  | bool b =>
    have hg : it.get = .subBool := by simpa [dfltOk, hd] using hdo
    rw [hd] at heq h2
    simp only [sameDefault, sameStr_iff] at h2
    simp only [kindOk, hg] at hk
    cases v <;> simp [Dflt.val, scalarEq, number] at heq hk hv
    rename_i b'
    simp only [Denotes]; rw [h2]
    cases b <;> cases b' <;> simp at heq ⊢
  | int i =>
    have hg : it.get = .subInt ∨ it.get = .attrInt ∨ it.get = .subFloat ∨ it.get = .attrFloat := by simpa [dfltOk, hd] using hdo
    rw [hd] at heq h2
    simp only [sameDefault, decide_eq_true_eq] at h2
    simp only [Dflt.val] at heq
    rcases hg with hg | hg | hg | hg <;> simp only [kindOk, hg] at hk <;> cases v <;> simp at hk hv <;>
      exact ⟨i, 0, h2, Or.inr ⟨rfl, heq⟩⟩
  | float n k =>
    have hg : it.get = .subFloat ∨ it.get = .attrFloat := by simpa [dfltOk, hd] using hdo
    rw [hd] at heq h2
    simp only [sameDefault, decide_eq_true_eq] at h2
    simp only [Dflt.val] at heq
    rcases hg with hg | hg <;> simp only [kindOk, hg] at hk <;> cases v <;> simp at hk hv <;>
      exact ⟨n, k, h2, Or.inl heq⟩
  | enum e x =>
    rw [hd] at heq h2
    simp only [sameDefault, sameStr_iff] at h2
    cases v <;> simp [Dflt.val, scalarEq, number] at heq
    simp only [Denotes]; rw [h2, heq.2]
  | floats l => rw [hd] at h2; cases h2

/-- The width of a line: left out in terse output, and 1 in the schema. -/
example : ∃ it ∈ fastkml.itemsOf .LineStyle, it.attr = s% "width" ∧ scalar it.get = true ∧
    shown .terse it.dflt.val (.float (fx 1000000) : Val Cls Fix) = .none ∧
    (elemType .LineStyle).map (fun t => schemaDefaults t it.get it.node) = some [s% "1.0"] := by decide +kernel

/-- **C46, excluded cases.** Terse output leaves out a minimum of 256 pixels, which for
the schema means 0, and the position 0.5 of a hot spot, which for the schema means 1. -/
theorem C46_lod_hotSpot :
    (∃ it ∈ fastkml.itemsOf .Lod, it.attr = s% "min_lod_pixels" ∧ shown .terse it.dflt.val (.int 256 : Val Cls Fix) = .none ∧
      (elemType .Lod).map (fun t => schemaDefaults t it.get it.node) = some [s% "0.0"]) ∧
    (∃ it ∈ fastkml.itemsOf .HotSpot, it.attr = s% "x" ∧ shown .terse it.dflt.val (.float (fx 500000) : Val Cls Fix) = .none ∧
      (elemType .HotSpot).map (fun t => schemaDefaults t it.get it.node) = some [s% "1.0"]) := by decide +kernel

/-! ## C56: enumerations -/

/-- The values are the same. -/
def enumOk (t : QN) (it : Item Cls) : Bool :=
  match it.classes with
  | [.enum e] => e.values.all (fun x => (schemaValues t it.get it.node).any (sameStr x)) &&
      (schemaValues t it.get it.node).all fun x => e.values.any (sameStr x)
  | _ => true

set_option maxRecDepth 10000 in
theorem fastkml_enumOk {c : Cls} {t : QN} (h : elemType c = some t) (hc : c ≠ .SimpleField) {it : Item Cls}
    (hit : it ∈ fastkml.itemsOf c) : enumOk t it = true := by
  have key : ∀ c ∈ Cls.all, (match elemType c with
      | none => true
      | some t => decide (c = .SimpleField) || (fastkml.itemsOf c).all fun it => enumOk t it) = true := by decide +kernel
  have := key c (Cls.mem_all c)
  rw [h] at this
  simp only [Bool.or_eq_true, decide_eq_true_eq, hc, false_or] at this
  exact List.all_eq_true.mp this it hit

/-- **C56.** The values an attribute with an enumeration can have are exactly those that
the schemas list for the child or XML attribute it is written to.  (The schemas list no
values for the type of a `SimpleField`.) -/
theorem C56_enum {c : Cls} {t : QN} (h : elemType c = some t) (hc : c ≠ .SimpleField) {it : Item Cls}
    (hit : it ∈ fastkml.itemsOf c) {e : EnumId} (he : it.classes = [.enum e]) (x : Str) :
    x ∈ e.values ↔ x ∈ schemaValues t it.get it.node := by
  have hok := fastkml_enumOk h hc hit
  simp only [enumOk, he, Bool.and_eq_true, List.all_eq_true, List.any_eq_true, sameStr_iff] at hok
  constructor
  · intro hx
    obtain ⟨y, hy, rfl⟩ := hok.1 x hx
    exact hy
  · intro hx
    obtain ⟨y, hy, rfl⟩ := hok.2 x hx
    exact hy

example : ∃ it ∈ fastkml.itemsOf .Point, it.classes = [.enum .altitudeMode] ∧
    (elemType .Point).map (fun t => (schemaValues t it.get it.node).length) = some 5 := by decide +kernel

end Verif
