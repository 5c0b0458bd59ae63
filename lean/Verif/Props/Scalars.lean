import Verif.Spec.Scalars
import Verif.ExtInst
import Verif.Lemmas.Slots

/-!
# C18, C19, C23: booleans, enumerations, text
-/

set_option linter.unusedSectionVars false
set_option linter.unusedSimpArgs false

namespace Verif

open Spec

variable {C F : Type} [DecidableEq C] [PyExt F]

/-! ## C18 Boolean text -/

/-- Strict reading of a boolean accepts exactly the four XSD texts. -/
theorem C18_strict (t : Str) (b : Bool) : getBooleanValue F t true = some b ↔ BoolText b t := by
  unfold getBooleanValue
  simp only [if_true]
  split
  · rename_i h
    cases b with
    | true => simp [BoolText, h]
    | false => rcases h with rfl | rfl <;> simp [BoolText]
  · rename_i h
    split
    · rename_i h2
      cases b with
      | false => simp [BoolText, h2]
      | true => rcases h2 with rfl | rfl <;> simp [BoolText]
    · rename_i h2
      cases b with
      | true => simpa [BoolText] using h
      | false => simpa [BoolText] using h2

/-- Lenient reading lowers the text, then also accepts whatever `float()` does. -/
theorem C18_lenient (t : Str) (b : Bool) : getBooleanValue F t false = some b ↔
    BoolText b (lower t) ∨
    ((∀ b', ¬BoolText b' (lower t)) ∧
      ∃ f : F, PyExt.parse (lower t) = some f ∧ PyExt.truthy f = b) := by
  unfold getBooleanValue
  simp only [Bool.false_eq_true, if_false]
  by_cases h1 : lower t = s% "1" ∨ lower t = s% "true"
  · rw [if_pos h1]
    have ht : BoolText true (lower t) := h1
    cases b with
    | true => simp [ht]
    | false =>
      simp only [Option.some.injEq, Bool.true_eq_false, false_iff, not_or, not_and]
      refine ⟨?_, fun h => absurd ht (h true)⟩
      rcases h1 with h | h <;> simp [BoolText, h]
  · rw [if_neg h1]
    by_cases h2 : lower t = s% "0" ∨ lower t = s% "false"
    · rw [if_pos h2]
      have hf : BoolText false (lower t) := h2
      cases b with
      | false => simp [hf]
      | true =>
        simp only [Option.some.injEq, Bool.false_eq_true, false_iff, not_or, not_and]
        exact ⟨h1, fun h => absurd hf (h false)⟩
    · rw [if_neg h2]
      have hn : ∀ b', ¬BoolText b' (lower t) := by
        intro b'; cases b' with
        | true => exact h1
        | false => exact h2
      have : ¬BoolText b (lower t) := hn b
      simp only [this, false_or, hn, not_false_eq_true, implies_true, true_and, Option.map_eq_some_iff]

/-- The whole reader: the attribute read from an element whose first child of
that name has the text `t`.  Blank text is ignored; in strict mode every text
other than the four raises `KMLParseError`. -/
theorem C18_read_strict (L : Lib C) (it : Item C) (hg : it.get = .subBool)
    (hc : it.classes = [.bool]) (ns : Str) (nss : NsMap) (e n : Xml) (kids : List (Kid C F))
    (t : Str) (hf : e.find (ns ++ it.node) = some n) (ht : n.text = some t) :
    ((∀ b, getKwarg L it true ns nss e kids = .ok (some (.bool b)) ↔ ∃ u, CoreOf t u ∧ BoolText b u) ∧
     (getKwarg L it true ns nss e kids = .ok none ↔ Blank t) ∧
     (getKwarg L it true ns nss e kids = .error .parseError ↔
        ¬Blank t ∧ ∀ b u, CoreOf t u → ¬BoolText b u)) := by
  have hcore : ∀ u, CoreOf t u ↔ u = strip t := by
    intro u
    constructor
    · rintro ⟨⟨a, b, ha, hb, rfl⟩, h1, h2⟩
      exact (strip_surround ha hb ⟨h1, h2⟩).symm
    · rintro rfl
      obtain ⟨a, b, ha, hb, hs⟩ := strip_decomp t
      exact ⟨⟨a, b, ha, hb, hs⟩, (strip_trimmed t).1, (strip_trimmed t).2⟩
  have hblank : Blank t ↔ strip t = [] := (strip_nil_iff t).symm
  have hkw : getKwarg L it true ns nss e kids =
      if strip t = [] then .ok none else
      match getBooleanValue F (strip t) true with
      | some b => .ok (some (.bool b))
      | none => .error .parseError := by
    unfold getKwarg
    simp only [hg, hc, getSub, hf, ht, strippedText, cleanString]
    by_cases hs : strip t = []
    · rw [if_pos hs]
      by_cases h0 : t = []
      · simp [h0, wrap]
      · simp [h0, hs, wrap]
    · have h0 : t ≠ [] := by rintro rfl; exact hs rfl
      rw [if_neg hs]
      simp only [List.isEmpty_iff, h0, hs, if_false]
      cases getBooleanValue F (strip t) true <;> rfl
  rw [hkw]
  simp only [hcore, hblank, exists_eq_left, forall_eq]
  by_cases hs : strip t = []
  · simp [hs, BoolText]
  · simp only [hs, if_false, not_false_eq_true, true_and, false_iff, iff_false]
    refine ⟨?_, ?_, ?_⟩
    · intro b
      rw [← C18_strict (F := F)]
      cases getBooleanValue F (strip t) true <;> simp
    · cases getBooleanValue F (strip t) true <;> simp
    · constructor
      · intro h b hb
        rw [← C18_strict (F := F)] at hb
        rw [hb] at h
        simp at h
      · intro h
        cases hv : getBooleanValue F (strip t) true with
        | none => rfl
        | some b => exact absurd ((C18_strict (F := F) _ _).mp hv) (h b)

/-- Written booleans read back unchanged, in both modes. -/
theorem C18_roundtrip (b strict : Bool) (ns node : Str) (e e' : Xml)
    (h : setSubBool (C := C) (F := F) ns node (.bool b) e = .ok e')
    (hfresh : ∀ k ∈ e.kids, k.tag ≠ ns ++ node) :
    getSub (fun t => getBooleanValue F t strict) e' (ns ++ node) strict = .ok (some b) := by
  simp only [setSubBool, Except.ok.injEq] at h
  subst h
  have hfind : (e.append (.leaf (ns ++ node) (intRepr (if b then 1 else 0)))).find (ns ++ node) =
      some (.leaf (ns ++ node) (intRepr (if b then 1 else 0))) := by
    simp only [Xml.find, Xml.append, Xml.kids, List.find?_append]
    rw [List.find?_eq_none.mpr]
    · simp [Xml.leaf, Xml.tag]
    · intro k hk; simpa using hfresh k hk
  simp only [getSub, hfind]
  cases b <;> cases strict <;> rfl

example : getBooleanValue Fix (s% "true") true = some true ∧ getBooleanValue Fix (s% "TRUE") true = none
    ∧ getBooleanValue Fix (s% "TRUE") false = some true ∧ getBooleanValue Fix (s% "0.0") false = some false := by
  decide

/-! ## C19 Enumerations -/

/-- The spellings of every enum are pairwise different even ignoring case. -/
theorem C19_distinct (e : EnumId) : (e.values.map lower).Nodup := by
  cases e <;> decide

theorem mem_lower_inj {e : EnumId} {v w : Str} (hv : v ∈ e.values) (hw : w ∈ e.values)
    (h : lower v = lower w) : v = w := by
  have := injOn_of_nodup_map (C19_distinct e) hv hw h
  exact this

/-- Strict reading accepts exactly the member spellings. -/
theorem C19_strict (e : EnumId) (t v : Str) :
    getEnumValue e t true = some v ↔ v = t ∧ t ∈ e.values := by
  unfold getEnumValue enumCall
  by_cases h : t ∈ e.values
  · simp [h, eq_comm]
  · simp only [h, if_false, and_false, iff_false]
    split
    · simp
    · rename_i w hw
      have : w ∈ e.values := List.mem_of_find?_eq_some hw
      have hne : w ≠ t := by rintro rfl; exact h this
      simp [hne]

/-- Lenient reading yields the unique member that agrees up to case. -/
theorem C19_lenient (e : EnumId) (t v : Str) :
    getEnumValue e t false = some v ↔ v ∈ e.values ∧ lower v = lower t := by
  unfold getEnumValue enumCall
  by_cases h : t ∈ e.values
  · simp only [h, if_true, Bool.false_and, Bool.false_eq_true, if_false, Option.some.injEq]
    constructor
    · rintro rfl; exact ⟨h, rfl⟩
    · rintro ⟨hv, hl⟩; exact (mem_lower_inj hv h hl).symm
  · simp only [h, if_false, Bool.false_and, Bool.false_eq_true]
    constructor
    · intro hh
      split at hh
      · cases hh
      · rename_i w hw
        simp at hh; subst hh
        refine ⟨List.mem_of_find?_eq_some hw, ?_⟩
        have := List.find?_some hw
        simpa using this
    · rintro ⟨hv, hl⟩
      cases hw : e.values.find? (fun v => decide (lower v = lower t)) with
      | none =>
        have := List.find?_eq_none.mp hw v hv
        simp [hl] at this
      | some w =>
        simp only [Option.some.injEq]
        have h1 : w ∈ e.values := List.mem_of_find?_eq_some hw
        have h2 : lower w = lower t := by simpa using List.find?_some hw
        exact mem_lower_inj h1 hv (h2.trans hl.symm)

theorem lowerChar_letter : ∀ g ∈ letters, ∀ c ∈ g, g.head? = some (lowerChar c) := by decide +kernel

theorem letters_disjoint : ∀ g ∈ letters, ∀ g' ∈ letters, ∀ c ∈ g, c ∈ g' → g = g' := by decide +kernel

theorem lowerChar_cases (c : Char) : lowerChar c = c ∨ ∃ g ∈ letters, c ∈ g ∧ lowerChar c ∈ g := by
  by_cases h : 'A' ≤ c ∧ c ≤ 'Z'
  · right
    have key : ∀ n, n < 91 → 65 ≤ n → ∃ g ∈ letters, Char.ofNat n ∈ g ∧ lowerChar (Char.ofNat n) ∈ g := by decide +kernel
    have h1 : 65 ≤ c.toNat := h.1
    have h2 : c.toNat ≤ 90 := h.2
    have := key c.toNat (by omega) h1
    rwa [Char.ofNat_toNat] at this
  · by_cases h2 : c.toNat = 0x212A
    · right
      have : c = '\u212A' := by rw [← Char.ofNat_toNat c, h2]
      subst this
      exact ⟨['k', 'K', '\u212A'], by decide, by decide, by decide⟩
    · left; simp only [lowerChar, if_neg h, if_neg h2]

theorem sameLetter_iff (c d : Char) : SameLetter c d ↔ lowerChar c = lowerChar d := by
  constructor
  · rintro (rfl | ⟨g, hg, hc, hd⟩)
    · rfl
    · exact Option.some.inj ((lowerChar_letter g hg c hc).symm.trans (lowerChar_letter g hg d hd))
  · intro h
    rcases lowerChar_cases c with h1 | ⟨g, hg, hc, h1⟩ <;> rcases lowerChar_cases d with h2 | ⟨g', hg', hd, h2⟩
    · exact Or.inl (h1.symm.trans (h.trans h2))
    · exact Or.inr ⟨g', hg', by rw [← h1, h]; exact h2, hd⟩
    · exact Or.inr ⟨g, hg, hc, by rw [← h2, ← h]; exact h1⟩
    · have := letters_disjoint g hg g' hg' _ h1 (h ▸ h2)
      exact Or.inr ⟨g, hg, hc, this ▸ hd⟩

theorem sameWord_iff (s t : Str) : SameWord s t ↔ lower s = lower t := by
  constructor
  · intro h
    induction h with
    | nil => rfl
    | cons h _ ih =>
      simp only [lower, List.map_cons] at ih ⊢
      rw [ih, (sameLetter_iff _ _).mp h]
  · intro h
    induction s generalizing t with
    | nil => cases t with
      | nil => exact .nil
      | cons d t => cases h
    | cons c s ih => cases t with
      | nil => cases h
      | cons d t =>
        simp only [lower, List.map_cons, List.cons.injEq] at h
        exact .cons ((sameLetter_iff _ _).mpr h.1) (ih t h.2)

/-- Lenient reading yields the member with the same letters, and only that. -/
theorem C19_letters (e : EnumId) (t v : Str) :
    getEnumValue e t false = some v ↔ v ∈ e.values ∧ SameWord v t := by
  rw [C19_lenient, sameWord_iff]

/-- KELVIN SIGN is a `k`. -/
example : getEnumValue .refreshMode (s% "onchange") false = some (s% "onChange") ∧
    SameWord (s% "onChange") (s% "ONCHANGE") ∧ SameWord (s% "ok") ['O', '\u212A'] := by
  refine ⟨by decide, (sameWord_iff _ _).mpr (by decide), (sameWord_iff _ _).mpr (by decide)⟩

/-- Written members read back unchanged, in both modes. -/
theorem C19_roundtrip (e : EnumId) (v : Str) (hv : v ∈ e.values) (strict : Bool) :
    getEnumValue e v strict = some v := by
  cases strict with
  | true => exact (C19_strict e v v).mpr ⟨rfl, hv⟩
  | false => exact (C19_lenient e v v).mpr ⟨hv, rfl⟩

example : getEnumValue .altitudeMode (s% "CLAMPtoground") false = some (s% "clampToGround") ∧
    getEnumValue .altitudeMode (s% "CLAMPtoground") true = none := by decide

/-! ## C23 Text normalisation -/

/-- What is trimmed is Python's white space. -/
theorem C23_white (c : Char) : isSpace c = true ↔ c.toNat ∈ whiteSpace := by
  simp only [isSpace, whiteSpace, Bool.or_eq_true, Bool.and_eq_true, decide_eq_true_eq, beq_iff_eq, List.mem_cons,
    List.not_mem_nil, or_false]
  omega

example : isSpace '\u3000' = true ∧ isSpace '\u200B' = false := by decide

theorem coreOf_iff (s t : Str) : CoreOf s t ↔ t = strip s := by
  constructor
  · rintro ⟨⟨a, b, ha, hb, rfl⟩, h1, h2⟩
    exact (strip_surround ha hb ⟨h1, h2⟩).symm
  · rintro rfl
    obtain ⟨a, b, ha, hb, hs⟩ := strip_decomp s
    exact ⟨⟨a, b, ha, hb, hs⟩, (strip_trimmed s).1, (strip_trimmed s).2⟩

theorem cleanString_some (s : Str) :
    cleanString (some s) = if strip s = [] then none else some (strip s) := by
  unfold cleanString
  by_cases h0 : s = []
  · subst h0; rfl
  · by_cases h1 : strip s = [] <;> simp [h0, h1]

/-- `clean_string` returns the core of the text, `None` iff the text is blank. -/
theorem C23_clean (s : Str) :
    (∀ t, cleanString (some s) = some t ↔ CoreOf s t ∧ t ≠ []) ∧
    (cleanString (some s) = none ↔ Blank s) := by
  rw [cleanString_some]
  simp only [coreOf_iff]
  have hb : Blank s ↔ strip s = [] := (strip_nil_iff s).symm
  rw [hb]
  by_cases h : strip s = []
  · simp only [h, if_true]
    exact ⟨by intro t; simp, by simp⟩
  · simp only [h, if_false]
    refine ⟨fun t => ?_, by simp⟩
    simp only [Option.some.injEq]
    constructor
    · rintro rfl; exact ⟨rfl, h⟩
    · rintro ⟨rfl, _⟩; rfl

/-- Cleaning is idempotent. -/
theorem C23_idempotent (s : Option Str) : cleanString (cleanString s) = cleanString s := by
  cases s with
  | none => rfl
  | some s =>
    rw [cleanString_some]
    split
    · rfl
    · rename_i h
      rw [cleanString_some, strip_idem, if_neg h]

/-- For every class of fastkml and every text argument its constructor cleans:
the stored attribute is the core of the given text, `None` iff it is blank. -/
theorem C23_constructor (c : Cls) (a : Str) (ha : (a, .clean) ∈ (fastkml.info c).slots)
    (ns : Str) (nss : NsMap) (kw : List (Str × Val Cls F)) (s : Str) (hs : dget a kw = some (.str s))
    (v : Val Cls F) (h : construct fastkml c ns nss kw = .ok v) :
    ∃ attrs, v = .obj c ns (mergeNs nss) attrs ∧
      ((Blank s ∧ dget a attrs = some .none) ∨
       (∃ t, CoreOf s t ∧ t ≠ [] ∧ dget a attrs = some (.str t))) := by
  obtain ⟨attrs, w, rfl, hw, hg⟩ := construct_slot h (slots_nodup c) ha
  refine ⟨attrs, rfl, ?_⟩
  simp only [kwGet, hs, Option.getD_some, normalise, Except.ok.injEq] at hw
  rw [hg, ← hw]
  cases hc : cleanString (some s) with
  | none => exact Or.inl ⟨(C23_clean s).2.mp hc, rfl⟩
  | some t =>
    have := ((C23_clean s).1 t).mp hc
    exact Or.inr ⟨t, this.1, this.2, rfl⟩

/-- Non-vacuity: a `Placemark` named `" Paris "` is stored as `"Paris"`. -/
example : (s% "name", .clean) ∈ (fastkml.info .Placemark).slots ∧
    (match construct (F := Fix) fastkml .Placemark [] [] [(s% "name", .str (s% " Paris\n"))] with
     | .ok (.obj _ _ _ attrs) => (match dget (s% "name") attrs with | some (.str t) => some t | _ => none)
     | _ => none) = some (s% "Paris") := by
  decide +kernel

end Verif
