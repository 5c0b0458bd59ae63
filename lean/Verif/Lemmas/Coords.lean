import Verif.Helpers
import Verif.Lemmas.Py

/-!
# Lemmas about coordinate texts
-/

set_option linter.unusedSectionVars false
set_option linter.unusedSimpArgs false

namespace Verif

variable {F : Type} [PyExt F] [LawfulExt F]

/-- The number that is read back from a number written with precision `p`. -/
def rounded (p : Option Nat) (f : F) : F :=
  match p with
  | none => f
  | some n => (PyExt.parse (PyExt.fixed n f)).getD f

theorem parse_fmt (p : Option Nat) (f : F) : PyExt.parse (fmt p f) = some (rounded p f) := by
  cases p with
  | none => exact LawfulExt.parse_repr f
  | some n =>
    obtain ⟨g, hg⟩ := LawfulExt.fixed_parse n f
    simp [fmt, rounded, hg]

theorem fmt_plain (p : Option Nat) (f : F) : Plain (fmt p f) := by
  cases p with
  | none => exact LawfulExt.repr_plain f
  | some n => exact LawfulExt.fixed_plain n f

theorem Plain.word {s : Str} (h : Plain s) : Word s := ⟨h.1, fun c hc => (h.2 c hc).1⟩

theorem Plain.noComma {s : Str} (h : Plain s) : ',' ∉ s := fun hc => (h.2 ',' hc).2 rfl

theorem blank_not_mem {s : Str} (h : ∀ c ∈ s, isSpace c = false) : ' ' ∉ s := fun hc => by
  have := h ' ' hc; rw [isSpace_blank] at this; cases this

theorem floatsOf_fmt (p : Option Nat) (c : Pt F) :
    floatsOf (c.map (fmt p)) = some (c.map (rounded p)) := by
  induction c with
  | nil => rfl
  | cons f fs ih => simp [floatsOf, parse_fmt, ih]

/-- A tuple of plain parts is a word. -/
theorem join_comma_word {ps : List Str} (hne : ps ≠ []) (h : ∀ s ∈ ps, Plain s) :
    Word (join [','] ps) := by
  constructor
  · cases ps with
    | nil => exact absurd rfl hne
    | cons p ps => exact join_ne_nil (h p (by simp)).1
  · intro c hc
    rcases mem_join hc with h1 | ⟨s, hs, h1⟩
    · simp at h1; subst h1; decide
    · exact ((h s hs).2 c h1).1

/-- ... that does not end in a comma. -/
theorem join_comma_last {ps : List Str} (h : ∀ s ∈ ps, Plain s) : ∀ t, join [','] ps ≠ t ++ [','] := by
  induction ps with
  | nil => intro t; simp [join]
  | cons p ps ih =>
    intro t
    cases ps with
    | nil =>
      intro ht
      have : ',' ∈ p := by
        have : join [','] [p] = p := rfl
        rw [this] at ht; rw [ht]; simp
      exact (h p (by simp)).noComma this
    | cons q qs =>
      intro ht
      have ht' : p ++ [','] ++ join [','] (q :: qs) = t ++ [','] := ht
      have hne : join [','] (q :: qs) ≠ [] := join_ne_nil (h q (by simp)).1
      obtain ⟨u, x, hu⟩ : ∃ u x, join [','] (q :: qs) = u ++ [x] := by
        rcases List.eq_nil_or_concat (join [','] (q :: qs)) with h0 | ⟨u, x, h0⟩
        · exact absurd h0 hne
        · exact ⟨u, x, by simpa using h0⟩
      rw [hu, ← List.append_assoc] at ht'
      have hx : x = ',' := by
        have := (List.append_inj' ht' rfl).2; simpa using this
      exact ih (fun s hs => h s (by simp [hs])) u (by rw [hu, hx])

/-- Joined words are not changed by `squeeze` if none ends in a comma. -/
theorem squeeze_join {ws : List Str} (h : ∀ w ∈ ws, Word w) (hl : ∀ w ∈ ws, ∀ t, w ≠ t ++ [',']) :
    squeeze false (join [' '] ws) = join [' '] ws := by
  induction ws with
  | nil => rfl
  | cons w ws ih =>
    have hw := h w (by simp)
    cases ws with
    | nil => exact squeeze_id_of_noBlank (blank_not_mem hw.2)
    | cons v vs =>
      show squeeze false (w ++ [' '] ++ join [' '] (v :: vs)) = w ++ [' '] ++ join [' '] (v :: vs)
      rw [List.append_assoc, squeeze_word_append (blank_not_mem hw.2) (hl w (by simp)) _ hw.1]
      show w ++ squeeze false (' ' :: join [' '] (v :: vs)) = _
      have : squeeze false (' ' :: join [' '] (v :: vs)) = ' ' :: squeeze false (join [' '] (v :: vs)) := rfl
      rw [this, ih (fun x hx => h x (by simp [hx])) (fun x hx => hl x (by simp [hx]))]
      simp

theorem trimmed_join {ws : List Str} (h : ∀ w ∈ ws, Word w) : Trimmed (join [' '] ws) := by
  constructor
  · intro c r hc
    cases ws with
    | nil => simp [join] at hc
    | cons w ws =>
      have hw := h w (by simp)
      cases hw0 : w with
      | nil => exact absurd hw0 hw.1
      | cons x xs =>
        have hx : isSpace x = false := hw.2 x (by simp [hw0])
        cases ws with
        | nil =>
          have : join [' '] [w] = w := rfl
          rw [this, hw0] at hc
          simp at hc; rw [← hc.1]; exact hx
        | cons v vs =>
          have : join [' '] (w :: v :: vs) = w ++ [' '] ++ join [' '] (v :: vs) := rfl
          rw [this, hw0] at hc
          simp at hc; rw [← hc.1]; exact hx
  · induction ws with
    | nil => intro c r hc; simp [join] at hc
    | cons w ws ih =>
      intro c r hc
      have hw := h w (by simp)
      cases ws with
      | nil =>
        have : join [' '] [w] = w := rfl
        rw [this] at hc
        exact hw.2 c (by simp [hc])
      | cons v vs =>
        have h1 : join [' '] (w :: v :: vs) = w ++ [' '] ++ join [' '] (v :: vs) := rfl
        have hne : join [' '] (v :: vs) ≠ [] := join_ne_nil (h v (by simp)).1
        obtain ⟨u, x, hu⟩ : ∃ u x, join [' '] (v :: vs) = u ++ [x] := by
          rcases List.eq_nil_or_concat (join [' '] (v :: vs)) with h0 | ⟨u, x, h0⟩
          · exact absurd h0 hne
          · exact ⟨u, x, by simpa using h0⟩
        rw [h1, hu, ← List.append_assoc] at hc
        have hx : x = c := by
          have := (List.append_inj' hc rfl).2; simpa using this
        exact ih (fun y hy => h y (by simp [hy])) c u (by rw [hu, hx])

/-- The words of a coordinates text are those that were joined. -/
theorem latlons_join {ws : List Str} (h : ∀ w ∈ ws, Word w) (hl : ∀ w ∈ ws, ∀ t, w ≠ t ++ [',']) :
    latlons (join [' '] ws) = ws := by
  unfold latlons
  rw [strip_of_trimmed (trimmed_join h), squeeze_join h hl, splitWs_join h]

theorem tuplesOf_words (p : Option Nat) (l : List (Pt F)) (hl : ∀ c ∈ l, c ≠ []) :
    tuplesOf (l.map fun c => join [','] (c.map (fmt p))) = some (l.map (·.map (rounded p))) := by
  induction l with
  | nil => rfl
  | cons c l ih =>
    have h1 : splitOn ',' (join [','] (c.map (fmt p))) = c.map (fmt p) := by
      apply splitOn_join
      · simpa using hl c (by simp)
      · intro s hs
        obtain ⟨f, _, rfl⟩ := List.mem_map.mp hs
        exact (fmt_plain p f).noComma
    simp only [List.map_cons, tuplesOf, h1, floatsOf_fmt, ih (fun x hx => hl x (by simp [hx]))]

theorem coord_plain (p : Option Nat) (c : Pt F) : ∀ s ∈ c.map (fmt p), Plain s := by
  intro s hs
  obtain ⟨f, _, rfl⟩ := List.mem_map.mp hs
  exact fmt_plain p f

/-- Reading a written `<coordinates>` text. -/
theorem tuplesOf_coordsText (p : Option Nat) (l : List (Pt F)) (hl : ∀ c ∈ l, c ≠ []) :
    tuplesOf (latlons (coordsText p l)) = some (l.map (·.map (rounded p))) := by
  unfold coordsText
  rw [latlons_join, tuplesOf_words p l hl]
  · intro w hw
    obtain ⟨c, hc, rfl⟩ := List.mem_map.mp hw
    exact join_comma_word (by simpa using hl c hc) (coord_plain p c)
  · intro w hw
    obtain ⟨c, hc, rfl⟩ := List.mem_map.mp hw
    exact join_comma_last (coord_plain p c)

/-- Reading a written `<gx:coord>` text. -/
theorem floatsOf_coordText (p : Option Nat) (c : Pt F) :
    floatsOf (splitWs (coordText p c)) = some (c.map (rounded p)) := by
  unfold coordText
  rw [splitWs_join, floatsOf_fmt]
  intro w hw
  exact (coord_plain p c w hw).word

theorem coordText_ne_nil (p : Option Nat) {c : Pt F} (h : c ≠ []) : coordText p c ≠ [] := by
  cases c with
  | nil => exact absurd rfl h
  | cons f fs => exact join_ne_nil (fmt_plain p f).1

omit [LawfulExt F] in
theorem floatsOf_length {ss : List Str} {c : Pt F} (h : floatsOf ss = some c) : c.length = ss.length := by
  induction ss generalizing c with
  | nil => simp [floatsOf] at h; subst h; rfl
  | cons s ss ih =>
    simp only [floatsOf] at h
    split at h
    · rename_i hfs
      simp at h; subst h
      simp [ih hfs]
    · cases h

omit [LawfulExt F] in
theorem tuplesOf_length {ws : List Str} {l : List (Pt F)} (h : tuplesOf ws = some l) :
    l.length = ws.length := by
  induction ws generalizing l with
  | nil => simp [tuplesOf] at h; subst h; rfl
  | cons w ws ih =>
    simp only [tuplesOf] at h
    split at h
    · rename_i hfs
      simp at h; subst h
      simp [ih hfs]
    · cases h

end Verif
