import Verif.Py

/-!
# Lemmas about the Python primitives
-/

set_option linter.unusedSectionVars false
set_option linter.unusedSimpArgs false

namespace Verif

/-! ## `strip` -/

theorem lstrip_decomp (s : Str) : ∃ a, (∀ c ∈ a, isSpace c = true) ∧ s = a ++ lstrip s := by
  refine ⟨s.takeWhile isSpace, ?_, ?_⟩
  · intro c hc
    induction s with
    | nil => simp at hc
    | cons x xs ih =>
      rw [List.takeWhile_cons] at hc
      split at hc
      · rcases List.mem_cons.mp hc with rfl | h
        · assumption
        · exact ih h
      · simp at hc
  · exact (List.takeWhile_append_dropWhile).symm

theorem lstrip_head {s : Str} {c : Char} {r : Str} (h : lstrip s = c :: r) : isSpace c = false := by
  unfold lstrip at h
  have := List.head?_dropWhile_not isSpace s
  rw [h] at this
  simpa using this

theorem lstrip_of_head {c : Char} {r : Str} (h : isSpace c = false) : lstrip (c :: r) = c :: r := by
  simp [lstrip, h]

theorem lstrip_idem (s : Str) : lstrip (lstrip s) = lstrip s := by
  cases h : lstrip s with
  | nil => rfl
  | cons c r => exact lstrip_of_head (lstrip_head h)

theorem lstrip_spaces {a : Str} (h : ∀ c ∈ a, isSpace c = true) (s : Str) :
    lstrip (a ++ s) = lstrip s := by
  induction a with
  | nil => rfl
  | cons x xs ih =>
    have hx := h x (by simp)
    simp only [lstrip, List.cons_append, List.dropWhile_cons, hx, if_true]
    exact ih (fun c hc => h c (by simp [hc]))

/-- A string without whitespace at either end. -/
def Trimmed (s : Str) : Prop :=
  (∀ c r, s = c :: r → isSpace c = false) ∧ (∀ c r, s = r ++ [c] → isSpace c = false)

theorem lstrip_of_trimmed {s : Str} (h : Trimmed s) : lstrip s = s := by
  cases s with
  | nil => rfl
  | cons c r => exact lstrip_of_head (h.1 c r rfl)

theorem strip_of_trimmed {s : Str} (h : Trimmed s) : strip s = s := by
  unfold strip
  rw [lstrip_of_trimmed h]
  cases hs : s.reverse with
  | nil => simp at hs; simp [hs, lstrip]
  | cons c r =>
    have : s = r.reverse ++ [c] := by
      have := congrArg List.reverse hs; simpa using this
    rw [lstrip_of_head (h.2 c r.reverse this)]
    rw [← hs]; simp

theorem strip_trimmed (s : Str) : Trimmed (strip s) := by
  constructor
  · intro c r h
    -- strip s is a prefix of lstrip s
    obtain ⟨b, hb, hdec⟩ := lstrip_decomp (lstrip s).reverse
    have h2 : lstrip s = strip s ++ b.reverse := by
      have := congrArg List.reverse hdec
      simpa [strip] using this
    rw [h] at h2
    exact lstrip_head (s := s) (c := c) (r := r ++ b.reverse) (by simpa using h2)
  · intro c r h
    unfold strip at h
    have := congrArg List.reverse h
    simp only [List.reverse_reverse, List.reverse_append, List.reverse_cons, List.reverse_nil,
      List.nil_append, List.cons_append] at this
    exact lstrip_head this

theorem strip_idem (s : Str) : strip (strip s) = strip s := strip_of_trimmed (strip_trimmed s)

/-- `strip` removes exactly whitespace at both ends. -/
theorem strip_decomp (s : Str) : ∃ a b, (∀ c ∈ a, isSpace c = true) ∧ (∀ c ∈ b, isSpace c = true) ∧
    s = a ++ strip s ++ b := by
  obtain ⟨a, ha, h1⟩ := lstrip_decomp s
  obtain ⟨b, hb, h2⟩ := lstrip_decomp (lstrip s).reverse
  refine ⟨a, b.reverse, ha, by simpa using hb, ?_⟩
  have h3 : lstrip s = strip s ++ b.reverse := by
    have := congrArg List.reverse h2
    simpa [strip] using this
  rw [List.append_assoc, ← h3]; exact h1

theorem lstrip_append_trimmed_ne {t b : Str} (ht : Trimmed t) (hne : t ≠ []) :
    lstrip (t ++ b) = t ++ b := by
  cases t with
  | nil => exact absurd rfl hne
  | cons c r => exact lstrip_of_head (ht.1 c r rfl)

/-- `strip` of a trimmed word surrounded by whitespace. -/
theorem strip_surround {a t b : Str} (ha : ∀ c ∈ a, isSpace c = true)
    (hb : ∀ c ∈ b, isSpace c = true) (ht : Trimmed t) : strip (a ++ t ++ b) = t := by
  unfold strip
  rw [List.append_assoc, lstrip_spaces ha]
  by_cases hne : t = []
  · subst hne
    have : lstrip b = [] := by
      have := lstrip_spaces hb []
      simpa [lstrip] using this
    rw [List.nil_append, this]; rfl
  · rw [lstrip_append_trimmed_ne ht hne, List.reverse_append,
      lstrip_spaces (by simpa using hb)]
    have := strip_of_trimmed ht
    unfold strip at this
    rwa [lstrip_of_trimmed ht] at this

theorem strip_eq_of_surround {a s b : Str} (ha : ∀ c ∈ a, isSpace c = true)
    (hb : ∀ c ∈ b, isSpace c = true) : strip (a ++ s ++ b) = strip s := by
  obtain ⟨a', b', ha', hb', hs⟩ := strip_decomp s
  have : a ++ s ++ b = (a ++ a') ++ strip s ++ (b' ++ b) := by
    have h := congrArg (fun x => a ++ x ++ b) hs
    simpa using h
  rw [this]
  refine strip_surround ?_ ?_ (strip_trimmed s)
  · intro c hc; rcases List.mem_append.mp hc with h | h
    · exact ha c h
    · exact ha' c h
  · intro c hc; rcases List.mem_append.mp hc with h | h
    · exact hb' c h
    · exact hb c h

theorem trimmed_of_noSpace {s : Str} (h : ∀ c ∈ s, isSpace c = false) : Trimmed s :=
  ⟨fun c r hs => h c (by simp [hs]), fun c r hs => h c (by simp [hs])⟩

theorem strip_noSpace {s : Str} (h : ∀ c ∈ s, isSpace c = false) : strip s = s :=
  strip_of_trimmed (trimmed_of_noSpace h)

theorem strip_nil_iff (s : Str) : strip s = [] ↔ ∀ c ∈ s, isSpace c = true := by
  constructor
  · intro h
    obtain ⟨a, b, ha, hb, hs⟩ := strip_decomp s
    rw [h] at hs
    intro c hc
    rw [hs] at hc
    simp at hc
    rcases hc with h | h
    · exact ha c h
    · exact hb c h
  · intro h
    have := strip_surround (a := s) (t := []) (b := []) h (by simp) ⟨by simp, by simp⟩
    simpa using this

/-! ## `split` and `join` -/

/-- A word: non-empty and without whitespace. -/
def Word (s : Str) : Prop := s ≠ [] ∧ ∀ c ∈ s, isSpace c = false

theorem splitWsAux_word {w : Str} (hw : ∀ c ∈ w, isSpace c = false) (cur r : Str) :
    splitWsAux cur (w ++ r) = splitWsAux (w.reverse ++ cur) r := by
  induction w generalizing cur with
  | nil => rfl
  | cons c cs ih =>
    have hc := hw c (by simp)
    simp only [List.cons_append, splitWsAux, hc]
    rw [if_neg (by simp), ih (fun x hx => hw x (by simp [hx]))]
    simp

theorem splitWsAux_space {c : Char} (hc : isSpace c = true) {cur : Str} (hcur : cur ≠ []) (r : Str) :
    splitWsAux cur (c :: r) = cur.reverse :: splitWsAux [] r := by
  simp [splitWsAux, hc, hcur]

theorem splitWsAux_spaces {a : Str} (ha : ∀ c ∈ a, isSpace c = true) (r : Str) :
    splitWsAux [] (a ++ r) = splitWsAux [] r := by
  induction a with
  | nil => rfl
  | cons c cs ih =>
    have hc := ha c (by simp)
    simp only [List.cons_append, splitWsAux, hc, if_true, List.isEmpty_nil]
    exact ih (fun x hx => ha x (by simp [hx]))

theorem splitWs_word {w : Str} (hw : Word w) : splitWs w = [w] := by
  have := splitWsAux_word hw.2 [] []
  unfold splitWs
  rw [List.append_nil] at this
  rw [this]
  simp [splitWsAux, hw.1]

/-- A word followed by whitespace. -/
theorem splitWs_word_space {w a : Str} (hw : Word w) (ha : ∀ c ∈ a, isSpace c = true)
    (hne : a ≠ []) (r : Str) : splitWs (w ++ a ++ r) = w :: splitWs r := by
  unfold splitWs
  rw [List.append_assoc, splitWsAux_word hw.2]
  cases a with
  | nil => exact absurd rfl hne
  | cons c cs =>
    rw [List.append_nil, List.cons_append, splitWsAux_space (ha c (by simp)) (by simpa using hw.1),
      List.reverse_reverse, splitWsAux_spaces (fun x hx => ha x (by simp [hx]))]

theorem splitWs_spaces {a : Str} (ha : ∀ c ∈ a, isSpace c = true) (r : Str) :
    splitWs (a ++ r) = splitWs r := splitWsAux_spaces ha r

theorem isSpace_blank : isSpace ' ' = true := by decide

theorem splitWs_join {ws : List Str} (h : ∀ w ∈ ws, Word w) : splitWs (join [' '] ws) = ws := by
  induction ws with
  | nil => rfl
  | cons w ws ih =>
    cases ws with
    | nil => exact splitWs_word (h w (by simp))
    | cons v vs =>
      show splitWs (w ++ [' '] ++ join [' '] (v :: vs)) = _
      rw [splitWs_word_space (h w (by simp)) (by simp [isSpace_blank]) (by simp),
        ih (fun x hx => h x (by simp [hx]))]

/-- Every piece of `split()` is a word. -/
theorem splitWsAux_words (s : Str) : ∀ cur : Str, (∀ c ∈ cur, isSpace c = false) →
    ∀ w ∈ splitWsAux cur s, Word w := by
  induction s with
  | nil =>
    intro cur hc w hw
    simp only [splitWsAux] at hw
    split at hw
    · simp at hw
    · rename_i hne
      simp at hw
      subst hw
      refine ⟨by simpa using hne, by simpa using hc⟩
  | cons c cs ih =>
    intro cur hc w hw
    simp only [splitWsAux] at hw
    split at hw
    · split at hw
      · exact ih [] (by simp) w hw
      · rename_i hne
        rcases List.mem_cons.mp hw with rfl | h
        · exact ⟨by simpa using hne, by simpa using hc⟩
        · exact ih [] (by simp) w h
    · rename_i hsp
      refine ih (c :: cur) ?_ w hw
      intro x hx
      rcases List.mem_cons.mp hx with rfl | h
      · simpa using hsp
      · exact hc x h

theorem splitWs_words (s : Str) : ∀ w ∈ splitWs s, Word w := splitWsAux_words s [] (by simp)

theorem splitOn_ne_nil (sep : Char) (s : Str) : splitOn sep s ≠ [] := by
  cases s with
  | nil => simp [splitOn]
  | cons c cs => simp only [splitOn]; split; · simp
                 · split <;> simp

theorem splitOn_noSep {sep : Char} {s : Str} (h : sep ∉ s) : splitOn sep s = [s] := by
  induction s with
  | nil => rfl
  | cons c cs ih =>
    simp only [List.mem_cons, not_or] at h
    rw [splitOn, if_neg (fun e => h.1 e.symm), ih h.2]

theorem splitOn_append_sep {sep : Char} {p : Str} (h : sep ∉ p) (r : Str) :
    splitOn sep (p ++ sep :: r) = p :: splitOn sep r := by
  induction p with
  | nil => simp [splitOn]
  | cons c cs ih =>
    simp only [List.mem_cons, not_or] at h
    rw [List.cons_append, splitOn, if_neg (fun e => h.1 e.symm), ih h.2]

theorem splitOn_join {sep : Char} {ps : List Str} (hne : ps ≠ []) (h : ∀ p ∈ ps, sep ∉ p) :
    splitOn sep (join [sep] ps) = ps := by
  induction ps with
  | nil => exact absurd rfl hne
  | cons p ps ih =>
    cases ps with
    | nil => exact splitOn_noSep (h p (by simp))
    | cons q qs =>
      show splitOn sep (p ++ [sep] ++ join [sep] (q :: qs)) = _
      rw [List.append_assoc]
      show splitOn sep (p ++ sep :: join [sep] (q :: qs)) = _
      rw [splitOn_append_sep (h p (by simp)), ih (by simp) (fun x hx => h x (by simp [hx]))]

theorem mem_join {c : Char} {sep : Str} {ps : List Str} (h : c ∈ join sep ps) :
    c ∈ sep ∨ ∃ p ∈ ps, c ∈ p := by
  induction ps with
  | nil => simp [join] at h
  | cons p ps ih =>
    cases ps with
    | nil => exact Or.inr ⟨p, by simp, h⟩
    | cons q qs =>
      have h' : c ∈ p ++ sep ++ join sep (q :: qs) := h
      simp only [List.mem_append] at h'
      rcases h' with (h' | h') | h'
      · exact Or.inr ⟨p, by simp, h'⟩
      · exact Or.inl h'
      · rcases ih h' with h | ⟨x, hx, hc⟩
        · exact Or.inl h
        · exact Or.inr ⟨x, by simp [hx], hc⟩

theorem join_ne_nil {sep p : Str} {ps : List Str} (h : p ≠ []) : join sep (p :: ps) ≠ [] := by
  cases ps with
  | nil => exact h
  | cons q qs => show p ++ sep ++ join sep (q :: qs) ≠ []; simp [h]

/-! ## `re.sub(", +", ",", s)` -/

theorem squeeze_id_of_noBlank {b : Bool} {s : Str} (h : ' ' ∉ s) : squeeze b s = s := by
  induction s generalizing b with
  | nil => cases b <;> rfl
  | cons c cs ih =>
    simp only [List.mem_cons, not_or] at h
    rw [squeeze, if_neg, ih h.2]
    simp; intro _ h'; exact h.1 h'.symm

/-- A word that does not end in a comma is not changed, and what follows it is
squeezed on its own. -/
theorem squeeze_word_append {w r : Str} (hw : ' ' ∉ w) (hlast : ∀ t, w ≠ t ++ [',']) (b : Bool)
    (hne : w ≠ []) : squeeze b (w ++ r) = w ++ squeeze false r := by
  induction w generalizing b with
  | nil => exact absurd rfl hne
  | cons c cs ih =>
    simp only [List.mem_cons, not_or] at hw
    rw [List.cons_append, squeeze, if_neg (by simp; intro _ h'; exact hw.1 h'.symm)]
    cases cs with
    | nil =>
      have hc : c ≠ ',' := fun h => hlast [] (by simp [h])
      have hb : (c == ',') = false := by simp [hc]
      rw [hb]; rfl
    | cons d ds =>
      rw [ih hw.2 (fun t ht => hlast (c :: t) (by simp [ht])) _ (by simp)]
      simp

/-! ## Digits -/

theorem digitChar_val {n : Nat} (h : n < 10) : digitVal (digitChar n) = some n := by
  have : ∀ n : Fin 10, digitVal (digitChar n.1) = some n.1 := by decide
  exact this ⟨n, h⟩

theorem digitChar_isDigit (n : Nat) : ∃ d, digitVal (digitChar n) = some d := by
  by_cases h : n < 10
  · exact ⟨n, digitChar_val h⟩
  · refine ⟨9, ?_⟩
    have : digitChar n = '9' := by
      match n, h with
      | n + 10, _ => rfl
    rw [this]; decide

theorem digitVal_lt {c : Char} {d : Nat} (h : digitVal c = some d) : d < 10 := by
  unfold digitVal at h
  split at h
  · rename_i hc
    have h2 : c.toNat ≤ 57 := hc.2
    have : c.toNat - 48 = d := by simpa using h
    omega
  · simp at h

theorem digitVal_range {c : Char} {d : Nat} (h : digitVal c = some d) : 48 ≤ c.toNat ∧ c.toNat ≤ 57 := by
  unfold digitVal at h
  split at h
  · rename_i hc
    exact ⟨hc.1, hc.2⟩
  · simp at h

theorem digit_noSpace {c : Char} {d : Nat} (h : digitVal c = some d) : isSpace c = false := by
  have := digitVal_range h
  simp only [isSpace, Bool.or_eq_false_iff, Bool.and_eq_false_iff, decide_eq_false_iff_not,
    beq_eq_false_iff_ne]
  omega

theorem digit_ne {c e : Char} {d : Nat} (h : digitVal c = some d) (he : digitVal e = none) : c ≠ e := by
  rintro rfl; rw [h] at he; cases he

/-- All characters are ASCII digits. -/
def Digits (s : Str) : Prop := ∀ c ∈ s, ∃ d, digitVal c = some d

theorem natReprAux_digits (f n : Nat) : Digits (natReprAux f n) := by
  induction f generalizing n with
  | zero => intro c hc; simp [natReprAux] at hc
  | succ f ih =>
    intro c hc
    rw [natReprAux] at hc
    split at hc
    · simp at hc; subst hc; exact digitChar_isDigit n
    · rcases List.mem_append.mp hc with h | h
      · exact ih _ c h
      · simp at h; subst h; exact digitChar_isDigit _

theorem natRepr_digits (n : Nat) : Digits (natRepr n) := natReprAux_digits _ _

theorem natReprAux_ne_nil (f n : Nat) : natReprAux (f + 1) n ≠ [] := by
  rw [natReprAux]; split <;> simp

theorem natRepr_ne_nil (n : Nat) : natRepr n ≠ [] := natReprAux_ne_nil n n

theorem Digits.noSpace {s : Str} (h : Digits s) : ∀ c ∈ s, isSpace c = false :=
  fun c hc => let ⟨_, hd⟩ := h c hc; digit_noSpace hd

theorem Digits.not_mem {s : Str} (h : Digits s) {c : Char} (hc : digitVal c = none) : c ∉ s :=
  fun hm => let ⟨_, hd⟩ := h c hm; by rw [hd] at hc; cases hc

/-- The value of a digit string (specification). -/
def digitsNum : Nat → Str → Nat
  | a, [] => a
  | a, c :: cs => digitsNum (a * 10 + (digitVal c).getD 0) cs

theorem digitsVal_of_digits {s : Str} (h : Digits s) (a : Nat) (b : Bool) (hne : s ≠ [] ∨ b = true) :
    digitsVal a b s = some (digitsNum a s) := by
  induction s generalizing a b with
  | nil => simp at hne; simp [digitsVal, digitsNum, hne]
  | cons c cs ih =>
    obtain ⟨d, hd⟩ := h c (by simp)
    rw [digitsVal, if_neg (digit_ne hd (by decide)), hd]
    simp only [digitsNum, hd, Option.getD_some]
    exact ih (fun x hx => h x (by simp [hx])) _ _ (Or.inr rfl)

/-! ### Digits of all scripts -/

theorem decimalZeros_apart : ∀ z ∈ decimalZeros, ∀ w ∈ decimalZeros, z = w ∨ z + 10 ≤ w ∨ w + 10 ≤ z := by
  decide +kernel

theorem decimalVal_iff {c : Char} {d : Nat} : decimalVal c = some d ↔ d < 10 ∧ ∃ z ∈ decimalZeros, c.toNat = z + d := by
  unfold decimalVal
  constructor
  · intro h
    obtain ⟨z, hz, rfl⟩ := Option.map_eq_some_iff.mp h
    have h1 := List.find?_some hz
    simp only [Bool.and_eq_true, decide_eq_true_eq] at h1
    exact ⟨by omega, z, List.mem_of_find?_eq_some hz, by omega⟩
  · rintro ⟨hd, z, hz, hc⟩
    cases hf : decimalZeros.find? fun z => decide (z ≤ c.toNat) && decide (c.toNat < z + 10) with
    | none =>
      have := List.find?_eq_none.mp hf z hz
      simp only [Bool.and_eq_true, decide_eq_true_eq] at this
      omega
    | some w =>
      have h1 := List.find?_some hf
      simp only [Bool.and_eq_true, decide_eq_true_eq] at h1
      have := decimalZeros_apart z hz w (List.mem_of_find?_eq_some hf)
      simp only [Option.map_some, Option.some.injEq]
      omega

theorem decimalVal_digit {c : Char} {d : Nat} (h : digitVal c = some d) : decimalVal c = some d := by
  have hr := digitVal_range h
  have hd : c.toNat - 48 = d := by
    unfold digitVal at h
    split at h
    · simpa using h
    · cases h
  exact decimalVal_iff.mpr ⟨by omega, 48, by decide +kernel, by omega⟩

/-- `isSpace`, of a code point. -/
def spaceCode (n : Nat) : Bool :=
  (9 ≤ n && n ≤ 13) || (28 ≤ n && n ≤ 32) || n == 0x85 || n == 0xA0 || n == 0x1680 ||
  (0x2000 ≤ n && n ≤ 0x200A) || n == 0x2028 || n == 0x2029 || n == 0x202F ||
  n == 0x205F || n == 0x3000

theorem decimalZeros_space : ∀ z ∈ decimalZeros, ∀ d : Fin 10, spaceCode (z + d.1) = false := by decide +kernel

theorem decimal_noSpace {c : Char} {d : Nat} (h : decimalVal c = some d) : isSpace c = false := by
  obtain ⟨hd, z, hz, hc⟩ := decimalVal_iff.mp h
  have : isSpace c = spaceCode c.toNat := rfl
  rw [this, hc]
  exact decimalZeros_space z hz ⟨d, hd⟩

theorem decimal_ne {c e : Char} {d : Nat} (h : decimalVal c = some d) (he : decimalVal e = none) : c ≠ e := by
  rintro rfl; rw [h] at he; cases he

theorem decimalsVal_of_digits {s : Str} (h : Digits s) (a : Nat) (b : Bool) (hne : s ≠ [] ∨ b = true) :
    decimalsVal a b s = some (digitsNum a s) := by
  induction s generalizing a b with
  | nil => simp at hne; simp [decimalsVal, digitsNum, hne]
  | cons c cs ih =>
    obtain ⟨d, hd⟩ := h c (by simp)
    rw [decimalsVal, if_neg (digit_ne hd (by decide)), decimalVal_digit hd]
    simp only [digitsNum, hd, Option.getD_some]
    exact ih (fun x hx => h x (by simp [hx])) _ _ (Or.inr rfl)

theorem isIntSpace_space {c : Char} (h : isIntSpace c = true) : isSpace c = true := by
  simp only [isIntSpace, Bool.and_eq_true] at h
  exact h.1

theorem noIntSpace {c : Char} (h : isSpace c = false) : isIntSpace c = false := by
  simp [isIntSpace, h]

theorem dropWhile_decomp {α : Type} (p : α → Bool) (s : List α) : ∃ a, (∀ c ∈ a, p c = true) ∧ s = a ++ s.dropWhile p := by
  induction s with
  | nil => exact ⟨[], by simp, rfl⟩
  | cons c s ih =>
    by_cases h : p c = true
    · obtain ⟨a, ha, hs⟩ := ih
      refine ⟨c :: a, fun x hx => ?_, ?_⟩
      · rcases List.mem_cons.mp hx with rfl | hx
        · exact h
        · exact ha x hx
      · rw [List.dropWhile_cons, if_pos h, List.cons_append, ← hs]
    · exact ⟨[], by simp, by rw [List.dropWhile_cons, if_neg h]; rfl⟩

theorem dropWhile_all {α : Type} {p : α → Bool} {a s : List α} (h : ∀ c ∈ a, p c = true) :
    (a ++ s).dropWhile p = s.dropWhile p := by
  induction a with
  | nil => rfl
  | cons c a ih =>
    rw [List.cons_append, List.dropWhile_cons, if_pos (h c (by simp))]
    exact ih fun x hx => h x (by simp [hx])

theorem dropWhile_none {α : Type} {p : α → Bool} {s : List α} (h : ∀ c ∈ s, p c = false) (r : List α) (hne : s ≠ []) :
    (s ++ r).dropWhile p = s ++ r := by
  cases s with
  | nil => exact absurd rfl hne
  | cons c s => rw [List.cons_append, List.dropWhile_cons, if_neg (by simp [h c (by simp)])]

theorem intStrip_decomp (s : Str) : ∃ a b, (∀ c ∈ a, isIntSpace c = true) ∧ (∀ c ∈ b, isIntSpace c = true) ∧
    s = a ++ intStrip s ++ b := by
  obtain ⟨a, ha, h1⟩ := dropWhile_decomp isIntSpace s
  obtain ⟨b, hb, h2⟩ := dropWhile_decomp isIntSpace (s.dropWhile isIntSpace).reverse
  refine ⟨a, b.reverse, ha, by simpa using hb, ?_⟩
  have h3 : s.dropWhile isIntSpace = intStrip s ++ b.reverse := by
    have := congrArg List.reverse h2
    simpa [intStrip] using this
  rw [List.append_assoc, ← h3]; exact h1

theorem intStrip_surround {a t b : Str} (ha : ∀ c ∈ a, isIntSpace c = true) (hb : ∀ c ∈ b, isIntSpace c = true)
    (ht : ∀ c ∈ t, isIntSpace c = false) (hne : t ≠ []) : intStrip (a ++ t ++ b) = t := by
  unfold intStrip
  rw [List.append_assoc, dropWhile_all ha, dropWhile_none ht b hne, List.reverse_append,
    dropWhile_all (by simpa using hb)]
  have := dropWhile_none (p := isIntSpace) (s := t.reverse) (by simpa using ht) [] (by simpa using hne)
  rw [List.append_nil] at this
  rw [this, List.reverse_reverse]

theorem intStrip_noSpace {s : Str} (h : ∀ c ∈ s, isSpace c = false) : intStrip s = s := by
  cases s with
  | nil => rfl
  | cons c s =>
    have := intStrip_surround (a := []) (b := []) (by simp) (by simp) (fun x hx => noIntSpace (h x hx)) (t := c :: s) (by simp)
    simpa using this

theorem digitsNum_append (a : Nat) (s t : Str) :
    digitsNum a (s ++ t) = digitsNum (digitsNum a s) t := by
  induction s generalizing a with
  | nil => rfl
  | cons c cs ih => simp [digitsNum, ih]

theorem digitsNum_natReprAux {f n : Nat} (h : n < f) : digitsNum 0 (natReprAux f n) = n := by
  induction f generalizing n with
  | zero => omega
  | succ f ih =>
    rw [natReprAux]
    split
    · rename_i h10; simp [digitsNum, digitChar_val h10]
    · rename_i h10
      rw [digitsNum_append, ih (by omega)]
      simp only [digitsNum, digitChar_val (Nat.mod_lt n (by decide : 0 < 10)), Option.getD_some]
      omega

theorem digitsNum_natRepr (n : Nat) : digitsNum 0 (natRepr n) = n := digitsNum_natReprAux (by omega)

theorem digitsVal_natRepr (n : Nat) : digitsVal 0 false (natRepr n) = some n := by
  rw [digitsVal_of_digits (natRepr_digits n) _ _ (Or.inl (natRepr_ne_nil n)), digitsNum_natRepr]

theorem decimalsVal_natRepr (n : Nat) : decimalsVal 0 false (natRepr n) = some n := by
  rw [decimalsVal_of_digits (natRepr_digits n) _ _ (Or.inl (natRepr_ne_nil n)), digitsNum_natRepr]

theorem natRepr_inj {m n : Nat} (h : natRepr m = natRepr n) : m = n := by
  rw [← digitsNum_natRepr m, h, digitsNum_natRepr]

theorem intRepr_noSpace (i : Int) : ∀ c ∈ intRepr i, isSpace c = false := by
  intro c hc
  unfold intRepr at hc
  split at hc
  · rcases List.mem_cons.mp hc with rfl | h
    · decide
    · exact (natRepr_digits _).noSpace c h
  · exact (natRepr_digits _).noSpace c hc

theorem intRepr_ne_nil (i : Int) : intRepr i ≠ [] := by
  unfold intRepr; split
  · simp
  · exact natRepr_ne_nil _

theorem intRepr_noComma (i : Int) : ',' ∉ intRepr i := by
  unfold intRepr; split
  · simp only [List.mem_cons, not_or]
    exact ⟨by decide, (natRepr_digits _).not_mem (by decide)⟩
  · exact (natRepr_digits _).not_mem (by decide)

/-- `int(str(i)) == i`. -/
theorem intParse_intRepr (i : Int) : intParse (intRepr i) = some i := by
  unfold intParse
  rw [intStrip_noSpace (intRepr_noSpace i)]
  by_cases hi : i < 0
  · have : intRepr i = '-' :: natRepr i.natAbs := by simp [intRepr, hi]
    rw [this]
    simp only [decimalsVal_natRepr, Option.map_some, Option.some.injEq]
    rw [Int.ofNat_eq_natCast]; omega
  · have : intRepr i = natRepr i.natAbs := by simp [intRepr, hi]
    rw [this]
    have hd := natRepr_digits i.natAbs
    have hv := decimalsVal_natRepr i.natAbs
    cases h : natRepr i.natAbs with
    | nil => exact absurd h (natRepr_ne_nil _)
    | cons c cs =>
      rw [h] at hv hd
      have hc1 : c ≠ '-' := by
        obtain ⟨d, hd'⟩ := hd c (by simp); exact digit_ne hd' (by decide)
      have hc2 : c ≠ '+' := by
        obtain ⟨d, hd'⟩ := hd c (by simp); exact digit_ne hd' (by decide)
      split
      · rename_i heq; simp at heq; exact absurd heq.1 hc1
      · rename_i heq; simp at heq; exact absurd heq.1 hc2
      · rw [hv]; simp; omega

theorem injOn_of_nodup_map {α β : Type} {f : α → β} {l : List α} (h : (l.map f).Nodup) {x y : α}
    (hx : x ∈ l) (hy : y ∈ l) (hf : f x = f y) : x = y := by
  induction l with
  | nil => cases hx
  | cons a l ih =>
    simp only [List.map_cons, List.nodup_cons] at h
    rcases List.mem_cons.mp hx with h1 | h1 <;> rcases List.mem_cons.mp hy with h2 | h2
    · rw [h1, h2]
    · subst h1; exact absurd (hf ▸ List.mem_map_of_mem (f := f) h2) h.1
    · subst h2; exact absurd (hf ▸ List.mem_map_of_mem (f := f) h1) h.1
    · exact ih h.2 h1 h2

/-! ## Dictionaries -/

section
variable {α β : Type} [DecidableEq α]

theorem dget_dset (k k' : α) (v : β) (d : List (α × β)) :
    dget k' (dset k v d) = if k = k' then some v else dget k' d := by
  induction d with
  | nil => simp [dset, dget]
  | cons p d ih =>
    obtain ⟨a, b⟩ := p
    simp only [dset]
    by_cases h : a = k
    · subst h
      simp only [if_true, dget]
      split <;> simp_all
    · rw [if_neg h, dget, dget, ih]
      by_cases h2 : a = k'
      · subst h2; simp [Ne.symm h]
      · simp [h2]

theorem keys_dset (k : α) (v : β) (d : List (α × β)) :
    (dset k v d).map Prod.fst = if k ∈ d.map Prod.fst then d.map Prod.fst else d.map Prod.fst ++ [k] := by
  induction d with
  | nil => simp [dset]
  | cons p d ih =>
    obtain ⟨a, b⟩ := p
    simp only [dset]
    by_cases h : a = k
    · subst h; simp
    · simp only [h, if_false, List.map_cons, ih, List.mem_cons]
      by_cases h2 : k ∈ d.map Prod.fst
      · simp [h2]
      · simp [h2, Ne.symm h]

theorem dset_nodup {k : α} {v : β} {d : List (α × β)} (h : (d.map Prod.fst).Nodup) :
    ((dset k v d).map Prod.fst).Nodup := by
  rw [keys_dset]
  split
  · exact h
  · rename_i hk
    rw [List.nodup_append]
    refine ⟨h, by simp, ?_⟩
    intro a ha b hb
    simp at hb; subst hb
    rintro rfl; exact hk ha

theorem dset_append_of_not_mem {k : α} {v : β} {d : List (α × β)} (h : k ∉ d.map Prod.fst) :
    dset k v d = d ++ [(k, v)] := by
  induction d with
  | nil => rfl
  | cons p d ih =>
    obtain ⟨a, b⟩ := p
    simp only [List.map_cons, List.mem_cons, not_or] at h
    simp [dset, Ne.symm h.1, ih h.2]

theorem dget_eq_none {k : α} {d : List (α × β)} : dget k d = none ↔ k ∉ d.map Prod.fst := by
  induction d with
  | nil => simp [dget]
  | cons p d ih =>
    obtain ⟨a, b⟩ := p
    simp only [dget, List.map_cons, List.mem_cons, not_or]
    by_cases h : a = k
    · subst h; simp
    · simp [h, Ne.symm h, ih]

theorem dget_mem {k : α} {v : β} {d : List (α × β)} (h : dget k d = some v) : (k, v) ∈ d := by
  induction d with
  | nil => simp [dget] at h
  | cons p d ih =>
    obtain ⟨a, b⟩ := p
    simp only [dget] at h
    split at h
    · simp_all
    · simp [ih h]

theorem dget_of_mem {k : α} {v : β} {d : List (α × β)} (hn : (d.map Prod.fst).Nodup)
    (h : (k, v) ∈ d) : dget k d = some v := by
  induction d with
  | nil => simp at h
  | cons p d ih =>
    obtain ⟨a, b⟩ := p
    simp only [List.map_cons, List.nodup_cons] at hn
    rcases List.mem_cons.mp h with h | h
    · simp only [Prod.mk.injEq] at h; simp [dget, h.1, h.2]
    · have : a ≠ k := by
        rintro rfl; exact hn.1 (List.mem_map_of_mem (f := Prod.fst) h)
      simp [dget, this, ih hn.2 h]

theorem dget_map {γ : Type} (f : β → γ) (k : α) (d : List (α × β)) :
    dget k (d.map fun p => (p.1, f p.2)) = (dget k d).map f := by
  induction d with
  | nil => rfl
  | cons p d ih =>
    obtain ⟨a, b⟩ := p
    simp only [List.map_cons, dget]
    split <;> simp_all

theorem dget_append (k : α) (d e : List (α × β)) :
    dget k (d ++ e) = (dget k d).or (dget k e) := by
  induction d with
  | nil => rfl
  | cons p d ih =>
    obtain ⟨a, b⟩ := p
    simp only [List.cons_append, dget]
    split <;> simp_all

theorem dget_dupdate (k : α) (d e : List (α × β)) (hn : (e.map Prod.fst).Nodup) :
    dget k (dupdate d e) = (dget k e).or (dget k d) := by
  unfold dupdate
  induction e generalizing d with
  | nil => simp [dget]
  | cons p e ih =>
    obtain ⟨a, b⟩ := p
    simp only [List.map_cons, List.nodup_cons] at hn
    rw [List.foldl_cons, ih _ hn.2, dget_dset, dget]
    by_cases h : a = k
    · subst h
      have : dget a e = none := dget_eq_none.mpr hn.1
      simp [this]
    · simp [h]

theorem dupdate_nodup {d e : List (α × β)} (h : (d.map Prod.fst).Nodup) :
    ((dupdate d e).map Prod.fst).Nodup := by
  unfold dupdate
  induction e generalizing d with
  | nil => exact h
  | cons p e ih => exact ih (dset_nodup h)

/-- Setting a key to the value it already has changes nothing. -/
theorem dset_self {k : α} {v : β} {d : List (α × β)} (h : dget k d = some v) : dset k v d = d := by
  induction d with
  | nil => simp [dget] at h
  | cons p d ih =>
    obtain ⟨a, b⟩ := p
    simp only [dget] at h
    simp only [dset]
    split at h
    · rename_i h1; subst h1; simp at h; simp [h]
    · rename_i h1; simp [h1, ih h]

end

end Verif
