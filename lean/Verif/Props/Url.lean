import Verif.Spec.Url
import Verif.Props.Find

/-!
# C36: which urls `get_style_by_url` accepts
-/

set_option linter.unusedSectionVars false
set_option linter.unusedSimpArgs false

namespace Verif

variable {F : Type}

/-- What follows the first `#`. -/
private def frag (s : Str) : Str := (s.dropWhile fun c => decide (c ≠ '#')).drop 1

private theorem frag_append (a b : Str) (h : '#' ∉ a) : frag (a ++ b) = frag b := by
  unfold frag
  induction a with
  | nil => rfl
  | cons c r ih =>
    simp only [List.mem_cons, not_or] at h
    rw [List.cons_append, List.dropWhile_cons_of_pos (by simpa using fun e : c = '#' => h.1 e.symm)]
    exact ih h.2

private theorem frag_none (s : Str) (h : '#' ∉ s) : frag s = [] := by
  have := frag_append s [] h
  rw [List.append_nil] at this
  rw [this]; rfl

theorem takeWhile_holds {p : Char → Bool} {s : Str} {c : Char} (h : c ∈ s.takeWhile p) : p c = true := by
  induction s with
  | nil => cases h
  | cons d r ih =>
    rw [List.takeWhile_cons] at h
    split at h
    · rename_i hd
      rcases List.mem_cons.mp h with h | h
      · rw [h]; exact hd
      · exact ih h
    · cases h

theorem dropWhile_colon (s : Str) (h : ':' ∈ s) : ∃ r, s.dropWhile (fun c => decide (c ≠ ':')) = ':' :: r := by
  induction s with
  | nil => cases h
  | cons c r ih =>
    by_cases hc : c = ':'
    · subst hc; exact ⟨r, by rw [List.dropWhile_cons_of_neg (by simp)]⟩
    · rw [List.dropWhile_cons_of_pos (by simpa using hc)]
      exact ih (by rcases List.mem_cons.mp h with h | h; exact absurd h.symm hc; exact h)

/-- `dropScheme` removes a beginning without `#`, `/`, and brackets. -/
theorem dropScheme_spec (s : Str) : ∃ a, s = a ++ dropScheme s ∧ ∀ c ∈ a, schemeChar c = true ∨ c = ':' := by
  unfold dropScheme
  simp only []
  split
  · rename_i h
    simp only [Bool.and_eq_true, decide_eq_true_eq] at h
    obtain ⟨⟨h1, _⟩, h3⟩ := h
    obtain ⟨r, hr⟩ := dropWhile_colon s h1
    have hs : s = s.takeWhile (fun c => decide (c ≠ ':')) ++ ':' :: r := by rw [← hr, List.takeWhile_append_dropWhile]
    refine ⟨s.takeWhile (fun c => decide (c ≠ ':')) ++ [':'], ?_, ?_⟩
    · have hd : ∀ t : Str, s = t ++ ':' :: r → s.drop (t.length + 1) = r := by
        intro t ht
        rw [ht, ← List.drop_drop, List.drop_left]
        rfl
      rw [hd _ hs, List.append_assoc]; exact hs
    · intro c hc
      rcases List.mem_append.mp hc with hc | hc
      · exact .inl (List.all_eq_true.mp h3 c hc)
      · exact .inr (by simpa using hc)
  · exact ⟨[], rfl, by simp⟩

/-- The network location and the rest of a url that `urlsplit` takes apart. -/
private def parts (url : Str) : Str × Str :=
  let u := dropScheme (urlSafe (url.dropWhile c0OrSpace))
  if u.take 2 = ['/', '/'] then splitNetloc u else ([], u)

private theorem urlsplit_eq (U : UrlLib) (url : Str) : urlsplit U url =
    if bracketsOk U (parts url).1 = true ∧ netlocOk U (parts url).1 = true then .ok ((parts url).1, frag (parts url).2) else .error .valueError := by
  have hf : (if '#' ∈ (parts url).2 then ((parts url).2.dropWhile fun c => decide (c ≠ '#')).drop 1 else []) = frag (parts url).2 := by
    split
    · rfl
    · rename_i h; rw [frag_none _ h]
  unfold urlsplit
  show (if bracketsOk U (parts url).1 = true then
      if netlocOk U (parts url).1 = true then Except.ok ((parts url).1,
        if '#' ∈ (parts url).2 then ((parts url).2.dropWhile fun c => decide (c ≠ '#')).drop 1 else []) else Except.error Err.valueError
      else Except.error Err.valueError) = _
  rw [hf]
  by_cases h1 : bracketsOk U (parts url).1 = true <;> by_cases h2 : netlocOk U (parts url).1 = true <;> simp [h1, h2]

private theorem no_hash {c : Char} (h : schemeChar c = true ∨ c = ':') : c ≠ '#' ∧ c ≠ '/' := by
  rcases h with h | h
  · constructor <;> (rintro rfl; exact absurd h (by decide))
  · subst h; decide

/-- A url is what precedes the network location, the network location and the rest. -/
private theorem parts_spec (url : Str) : ∃ a, urlSafe url = a ++ ((parts url).1 ++ (parts url).2) ∧ '#' ∉ a ∧ '#' ∉ (parts url).1 ∧
    ((parts url).1 ≠ [] → ['/', '/'] <:+ a) := by
  have h1 : urlSafe url = urlSafe (url.takeWhile c0OrSpace) ++ urlSafe (url.dropWhile c0OrSpace) := by
    unfold urlSafe
    rw [← List.filter_append, List.takeWhile_append_dropWhile]
  have h2 : '#' ∉ urlSafe (url.takeWhile c0OrSpace) := by
    intro h
    exact absurd (takeWhile_holds (List.mem_filter.mp h).1) (by decide)
  obtain ⟨a, ha, hc⟩ := dropScheme_spec (urlSafe (url.dropWhile c0OrSpace))
  have h3 : '#' ∉ a := fun h => (no_hash (hc _ h)).1 rfl
  unfold parts
  simp only []
  generalize dropScheme (urlSafe (url.dropWhile c0OrSpace)) = u at *
  split
  · rename_i hu
    refine ⟨urlSafe (url.takeWhile c0OrSpace) ++ a ++ ['/', '/'], ?_, ?_, ?_, ?_⟩
    · rw [h1, ha]
      unfold splitNetloc
      simp only [List.takeWhile_append_dropWhile]
      rw [← hu, List.append_assoc, List.append_assoc, List.take_append_drop]
    · simp [h2, h3]
    · intro h
      have := takeWhile_holds h
      simp at this
    · intro _; exact List.suffix_append _ _
  · refine ⟨urlSafe (url.takeWhile c0OrSpace) ++ a, ?_, ?_, by simp, fun h => absurd rfl h⟩
    · rw [h1, ha, List.nil_append, List.append_assoc]
    · simp [h2, h3]

private theorem parts_frag (url : Str) : frag (parts url).2 = urlFragment url := by
  obtain ⟨a, h, h1, h2, _⟩ := parts_spec url
  show _ = frag (urlSafe url)
  rw [h, frag_append _ _ h1, frag_append _ _ h2]

/-- The network location is in the url, before the first `#`. -/
private theorem parts_before (url : Str) : ∃ a b, urlSafe (url.takeWhile fun c => decide (c ≠ '#')) = a ++ (parts url).1 ++ b ∧
    ((parts url).1 ≠ [] → ['/', '/'] <:+ a) := by
  obtain ⟨a, h, h1, h2, h3⟩ := parts_spec url
  have key : urlSafe (url.takeWhile fun c => decide (c ≠ '#')) = (urlSafe url).takeWhile fun c => decide (c ≠ '#') := by
    unfold urlSafe
    clear h h1 h2 h3
    induction url with
    | nil => rfl
    | cons c r ih =>
      by_cases hc : c = '#'
      · subst hc; simp
      · rw [List.takeWhile_cons_of_pos (by simpa using hc)]
        by_cases ht : c ∈ ['\t', '\r', '\n']
        · rw [List.filter_cons_of_neg (by simpa only [decide_eq_true_eq, Classical.not_not] using ht), List.filter_cons_of_neg (by simpa only [decide_eq_true_eq, Classical.not_not] using ht), ih]
        · rw [List.filter_cons_of_pos (by simpa using ht), List.filter_cons_of_pos (by simpa using ht),
            List.takeWhile_cons_of_pos (by simpa using hc), ih]
  have tw : ∀ x y : Str, '#' ∉ x → (x ++ y).takeWhile (fun c => decide (c ≠ '#')) = x ++ y.takeWhile (fun c => decide (c ≠ '#')) := by
    intro x y hx
    refine List.takeWhile_append_of_pos fun c hc => ?_
    simpa using fun e : c = '#' => hx (e ▸ hc)
  refine ⟨a, ((parts url).2).takeWhile (fun c => decide (c ≠ '#')), ?_, h3⟩
  rw [key, h, tw _ _ h1, tw _ _ h2, List.append_assoc]

/-- **C36.** When `get_style_by_url` does not raise, it is the function of the theorems
above; the only error is `ValueError`, and whether it is raised does not depend on the document. -/
theorem C36_url (U : UrlLib) (P : Look F) (url : Str) :
    (∀ doc, styleByUrl U P doc url = .ok (getStyleByUrl P doc url)) ∨ (∀ doc, styleByUrl U P doc url = .error .valueError) := by
  by_cases h : bracketsOk U (parts url).1 = true ∧ netlocOk U (parts url).1 = true
  · left
    intro doc
    unfold styleByUrl getStyleByUrl
    rw [urlsplit_eq, if_pos h, parts_frag]
  · right
    intro doc
    unfold styleByUrl
    rw [urlsplit_eq, if_neg h]

private theorem styleByUrl_ok (U : UrlLib) (P : Look F) (doc : Val Cls F) (url : Str)
    (h : bracketsOk U (parts url).1 = true ∧ netlocOk U (parts url).1 = true) : styleByUrl U P doc url = .ok (getStyleByUrl P doc url) := by
  unfold styleByUrl getStyleByUrl
  rw [urlsplit_eq, if_pos h, parts_frag]

/-- **C36.** It does not raise for a url that is ASCII and has no brackets before the first `#`; … -/
theorem C36_url_plain (U : UrlLib) (P : Look F) (doc : Val Cls F) (url : Str)
    (h : ∀ c ∈ url.takeWhile (fun c => decide (c ≠ '#')), c.toNat < 128 ∧ c ≠ '[' ∧ c ≠ ']') :
    styleByUrl U P doc url = .ok (getStyleByUrl P doc url) := by
  obtain ⟨a, b, hab, _⟩ := parts_before url
  have hn : ∀ c ∈ (parts url).1, c.toNat < 128 ∧ c ≠ '[' ∧ c ≠ ']' := by
    intro c hc
    have : c ∈ urlSafe (url.takeWhile fun c => decide (c ≠ '#')) := by rw [hab]; simp [hc]
    exact h c (List.mem_filter.mp this).1
  refine styleByUrl_ok U P doc url ⟨?_, ?_⟩
  · have h1 : '[' ∉ (parts url).1 := fun h => (hn _ h).2.1 rfl
    have h2 : ']' ∉ (parts url).1 := fun h => (hn _ h).2.2 rfl
    simp [bracketsOk, h1, h2]
  · unfold netlocOk
    rw [if_pos (.inr (List.all_eq_true.mpr fun c hc => by simpa using (hn c hc).1))]

/-- … nor for one without `//` before the first `#`, in particular for `#id` and `file.kml#id`. -/
theorem C36_url_local (U : UrlLib) (P : Look F) (doc : Val Cls F) (url : Str)
    (h : ∀ x y, (url.takeWhile fun c => decide (c ≠ '#')).filter (fun c => decide (c ∉ ['\t', '\r', '\n'])) ≠ x ++ ['/', '/'] ++ y) :
    styleByUrl U P doc url = .ok (getStyleByUrl P doc url) := by
  obtain ⟨a, b, hab, hs⟩ := parts_before url
  by_cases hn : (parts url).1 = []
  · refine styleByUrl_ok U P doc url ?_
    rw [hn]
    exact ⟨rfl, rfl⟩
  · obtain ⟨x, hx⟩ := hs hn
    refine absurd ?_ (h x ((parts url).1 ++ b))
    rw [hx]
    show urlSafe _ = _
    rw [hab, List.append_assoc]

/-- **C36, finding.** A url with one bracket in its network location is not resolved, although
only the fragment is used: `ValueError` is raised. -/
theorem C36_url_bracket (U : UrlLib) (P : Look F) (doc : Val Cls F) (host path : Str) (hh : ∀ c ∈ host, c ∉ ['/', '?', '#', ']', '\t', '\r', '\n']) :
    styleByUrl U P doc (s% "http://[" ++ host ++ '/' :: path) = .error .valueError := by
  have hp : (parts (s% "http://[" ++ host ++ '/' :: path)).1 = '[' :: host := by
    have hf : urlSafe host = host := by
      unfold urlSafe
      rw [List.filter_eq_self]
      intro c hc
      have := hh c hc
      simp at this
      simp [this]
    have h1 : urlSafe ((s% "http://[" ++ host ++ '/' :: path).dropWhile c0OrSpace) = s% "http://[" ++ host ++ urlSafe ('/' :: path) := by
      have : (s% "http://[" ++ host ++ '/' :: path).dropWhile c0OrSpace = s% "http://[" ++ host ++ '/' :: path := by
        rw [List.append_assoc]
        exact List.dropWhile_cons_of_neg (by decide)
      rw [this]
      unfold urlSafe at hf ⊢
      rw [List.filter_append, List.filter_append, hf]
      rfl
    have h2 : dropScheme (s% "http://[" ++ host ++ urlSafe ('/' :: path)) = s% "//[" ++ host ++ urlSafe ('/' :: path) := by
      rw [List.append_assoc, List.append_assoc]
      generalize host ++ urlSafe ('/' :: path) = r
      simp [dropScheme, asciiAlpha, schemeChar, List.takeWhile]
    have h3 : urlSafe ('/' :: path) = '/' :: urlSafe path := by
      unfold urlSafe
      rw [List.filter_cons_of_pos (by decide)]
    unfold parts
    simp only [h1, h2]
    rw [if_pos (by rfl), h3]
    unfold splitNetloc
    simp only [List.cons_append, List.nil_append, List.drop_succ_cons, List.drop_zero]
    rw [List.takeWhile_cons_of_pos (by decide), List.takeWhile_append_of_pos (fun c hc => by
      have := hh c hc
      simp at this
      simp [this])]
    simp
  rcases C36_url U P (s% "http://[" ++ host ++ '/' :: path) with h | h
  · exfalso
    have := h doc
    unfold styleByUrl at this
    rw [urlsplit_eq, if_neg] at this
    · cases this
    · intro hb
      rw [hp] at hb
      have : ']' ∉ '[' :: host := by
        simp only [List.mem_cons, not_or]
        exact ⟨by decide, fun h => hh _ h (by simp)⟩
      simp [bracketsOk, this] at hb
  · exact h doc

/-! ## Which hosts are refused -/

theorem span_at {a h b : Str} {x : Char} (ha : x ∉ a) :
    (a ++ x :: h ++ b).dropWhile (fun c => decide (c ≠ x)) = x :: h ++ b := by
  rw [List.append_assoc]
  induction a with
  | nil => exact List.dropWhile_cons_of_neg (by simp)
  | cons c r ih =>
    simp only [List.mem_cons, not_or] at ha
    rw [List.cons_append, List.dropWhile_cons_of_pos (by simpa using fun e : c = x => ha.1 e.symm)]
    exact ih ha.2

theorem takeWhile_to {h b : Str} {x : Char} (hh : x ∉ h) (hb : b = [] ∨ b.head? = some x) :
    (h ++ b).takeWhile (fun c => decide (c ≠ x)) = h := by
  rw [List.takeWhile_append_of_pos fun c hc => by simpa using fun e : c = x => hh (e ▸ hc)]
  have : b.takeWhile (fun c => decide (c ≠ x)) = [] := by
    cases b with
    | nil => rfl
    | cons y b =>
      rcases hb with hb | hb
      · cases hb
      · simp only [List.head?_cons, Option.some.injEq] at hb
        exact List.takeWhile_cons_of_neg (by simp [hb])
  rw [this, List.append_nil]

theorem split_at {n : Str} {x : Char} (h : x ∈ n) : ∃ a r, n = a ++ x :: r ∧ x ∉ a := by
  induction n with
  | nil => cases h
  | cons c n ih =>
    by_cases hc : c = x
    · exact ⟨[], n, by rw [hc]; rfl, by simp⟩
    · obtain ⟨a, r, rfl, ha⟩ := ih ((List.mem_cons.mp h).resolve_left fun e => hc e.symm)
      exact ⟨c :: a, r, rfl, by simp only [List.mem_cons, not_or]; exact ⟨fun e => hc e.symm, ha⟩⟩

theorem badHost_iff (U : UrlLib) (n : Str) : Spec.BadHost U n ↔ ¬ (bracketsOk U n = true ∧ netlocOk U n = true) := by
  have hbr : ∀ {a h b : Str}, n = a ++ '[' :: h ++ b → '[' ∉ a → ']' ∉ h → (b = [] ∨ b.head? = some ']') →
      ((n.dropWhile fun c => decide (c ≠ '[')).drop 1).takeWhile (fun c => decide (c ≠ ']')) = h := by
    rintro a h b rfl h1 h2 h3
    rw [span_at h1]
    exact takeWhile_to h2 h3
  constructor
  · rintro (⟨h1, h2⟩ | ⟨h1, h2⟩ | ⟨h1, h2, h3, h4, h5⟩ | ⟨h1, h2, h3, h4, h5⟩) ⟨hb, hn⟩
    · simp [bracketsOk, h1, h2] at hb
    · simp [bracketsOk, h1, h2] at hb
    · have ho : '[' ∈ n := by rw [h1]; simp
      unfold bracketsOk at hb
      rw [hbr h1 h2 h3 h4, if_pos ho, h5] at hb
      split at hb <;> cases hb
    · unfold netlocOk at hn
      rw [if_neg] at hn
      · simp only at hn
        rw [if_neg (fun e => h3 e.symm), List.all_eq_true] at hn
        have := hn _ h4
        simp only [decide_eq_true_eq] at this
        exact this h5
      · rintro (rfl | ha)
        · cases h1
        · have := List.all_eq_true.mp ha _ h1
          simp only [decide_eq_true_eq] at this
          omega
  · intro h
    by_cases hb : bracketsOk U n = true
    · have hn : netlocOk U n = false := by
        cases hn : netlocOk U n with
        | false => rfl
        | true => exact absurd ⟨hb, hn⟩ h
      unfold netlocOk at hn
      split at hn
      · cases hn
      · rename_i ha
        simp only at hn
        split at hn
        · cases hn
        · rename_i hne
          rw [not_or, Bool.not_eq_true, List.all_eq_false] at ha
          obtain ⟨c, hc, hc'⟩ := ha.2
          obtain ⟨d, hd, hd'⟩ := List.all_eq_false.mp hn
          simp only [decide_eq_true_eq, Classical.not_not] at hd' hc'
          exact .normal hc (by omega) (fun e => hne e.symm) hd hd'
    · unfold bracketsOk at hb
      split at hb
      · rename_i ho
        rcases ho with ⟨h1, h2⟩ | ⟨h1, h2⟩
        · exact .opened h1 h2
        · exact .closed h1 h2
      · rename_i hno
        split at hb
        · rename_i ho
          have hc : ']' ∈ n := Classical.byContradiction fun hc => hno (.inl ⟨ho, hc⟩)
          obtain ⟨a, r, hn, ha⟩ := split_at ho
          have hr : ∃ h b, r = h ++ b ∧ ']' ∉ h ∧ (b = [] ∨ b.head? = some ']') := by
            by_cases hx : ']' ∈ r
            · obtain ⟨h, b, rfl, hh⟩ := split_at hx
              exact ⟨h, ']' :: b, rfl, hh, .inr rfl⟩
            · exact ⟨r, [], by simp, hx, .inl rfl⟩
          obtain ⟨h, b, rfl, hh, hb'⟩ := hr
          have hn' : n = a ++ '[' :: h ++ b := by rw [hn]; simp
          rw [hbr hn' ha hh hb', Bool.not_eq_true] at hb
          exact .address hn' ha hh hb' hb
        · exact absurd rfl hb

private theorem urlSafe_id {s : Str} (h : ∀ c ∈ s, c ∉ ['\t', '\r', '\n']) : urlSafe s = s := by
  unfold urlSafe
  rw [List.filter_eq_self]
  intro c hc
  simpa only [decide_eq_true_eq] using h c hc

private theorem urlSafe_append (a b : Str) : urlSafe (a ++ b) = urlSafe a ++ urlSafe b := List.filter_append _ _

private theorem scheme_chars {s : Str} (h : Spec.Scheme s) : s.head?.map asciiAlpha = some true ∧
    ∀ c ∈ s, schemeChar c = true := by
  obtain ⟨c, r, rfl, hc, hr⟩ := h
  have h1 : asciiAlpha c = true := by unfold asciiAlpha; rw [decide_eq_true_eq]; exact hc
  refine ⟨by simp [h1], fun x hx => ?_⟩
  rcases List.mem_cons.mp hx with rfl | hx
  · simp [schemeChar, h1]
  · rcases hr x hx with h | h | h
    · have : asciiAlpha x = true := by unfold asciiAlpha; rw [decide_eq_true_eq]; exact h
      simp [schemeChar, this]
    · simp [schemeChar, h]
    · have : x ∈ ['+', '-', '.'] := by simpa using h
      simp only [schemeChar, Bool.or_eq_true, decide_eq_true_eq]
      exact .inr this

private theorem schemeChar_not {c : Char} (h : schemeChar c = true) : c ≠ ':' ∧ c0OrSpace c = false ∧ c ∉ ['\t', '\r', '\n'] := by
  have hb : 43 ≤ c.toNat ∧ c.toNat ≠ 58 := by
    simp only [schemeChar, asciiAlpha, Bool.or_eq_true, decide_eq_true_eq, List.mem_cons, List.not_mem_nil, or_false] at h
    rcases h with (h | h) | rfl | rfl | rfl
    · omega
    · omega
    · decide
    · decide
    · decide
  refine ⟨?_, ?_, ?_⟩
  · rintro rfl; exact hb.2 rfl
  · simp only [c0OrSpace, decide_eq_false_iff_not]; omega
  · intro hc
    simp only [List.mem_cons, List.not_mem_nil, or_false] at hc
    rcases hc with rfl | rfl | rfl <;> exact absurd hb.1 (by decide)

private theorem dropScheme_scheme {s u : Str} (h : Spec.Scheme s) : dropScheme (s ++ ':' :: u) = u := by
  obtain ⟨h1, h2⟩ := scheme_chars h
  have ht : (s ++ ':' :: u).takeWhile (fun c => decide (c ≠ ':')) = s :=
    takeWhile_to (fun hc => (schemeChar_not (h2 _ hc)).1 rfl) (.inr rfl)
  unfold dropScheme
  simp only [ht]
  rw [if_pos]
  · rw [List.drop_append, List.drop_eq_nil_of_le (by omega)]
    simp
  · simp only [Bool.and_eq_true, decide_eq_true_eq, List.all_eq_true, beq_iff_eq]
    exact ⟨⟨by simp, h1⟩, h2⟩

/-- **C36.** `get_style_by_url` raises `ValueError` exactly for the hosts that are refused. -/
theorem C36_url_host (U : UrlLib) (P : Look F) (doc : Val Cls F) {scheme host rest : Str} (hs : Spec.Scheme scheme)
    (hh : ∀ c ∈ host, c ∉ ['/', '?', '#', '\t', '\r', '\n'])
    (hr : rest = [] ∨ ∃ c r, rest = c :: r ∧ c ∈ ['/', '?', '#']) :
    (styleByUrl U P doc (scheme ++ s% "://" ++ host ++ rest) = .error .valueError ↔ Spec.BadHost U host) ∧
      (¬ Spec.BadHost U host → styleByUrl U P doc (scheme ++ s% "://" ++ host ++ rest) =
        .ok (getStyleByUrl P doc (scheme ++ s% "://" ++ host ++ rest))) := by
  have hp : (parts (scheme ++ s% "://" ++ host ++ rest)).1 = host := by
    obtain ⟨_, hsc⟩ := scheme_chars hs
    have h0 : (scheme ++ s% "://" ++ host ++ rest).dropWhile c0OrSpace = scheme ++ s% "://" ++ host ++ rest := by
      obtain ⟨c, r, rfl, _⟩ := hs
      exact List.dropWhile_cons_of_neg (by simp [(schemeChar_not (hsc c (by simp))).2.1])
    have h1 : urlSafe (scheme ++ s% "://" ++ host ++ rest) = scheme ++ ':' :: (s% "//" ++ (host ++ urlSafe rest)) := by
      rw [urlSafe_append, urlSafe_append, urlSafe_append, urlSafe_id (s := scheme) (fun c hc => (schemeChar_not (hsc c hc)).2.2),
        urlSafe_id (s := host) (fun c hc hm => hh c hc (List.mem_append_right ['/', '?', '#'] hm)),
        show urlSafe (s% "://") = s% "://" by decide]
      simp
    have h2 : (urlSafe rest).takeWhile (fun c => decide (c ∉ ['/', '?', '#'])) = [] := by
      rcases hr with rfl | ⟨c, r, rfl, hc⟩
      · rfl
      · have : urlSafe (c :: r) = c :: urlSafe r := by
          unfold urlSafe
          rw [List.filter_cons_of_pos]
          simp only [List.mem_cons, List.not_mem_nil, or_false] at hc
          rcases hc with rfl | rfl | rfl <;> decide
        rw [this]
        exact List.takeWhile_cons_of_neg (by rw [decide_eq_true_eq, Classical.not_not]; exact hc)
    unfold parts
    simp only [h0, h1, dropScheme_scheme hs]
    rw [if_pos (by rfl)]
    unfold splitNetloc
    simp only [List.cons_append, List.nil_append, List.drop_succ_cons, List.drop_zero]
    rw [List.takeWhile_append_of_pos (fun c hc => by
      simpa only [decide_eq_true_eq] using fun hm => hh c hc (List.mem_append_left ['\t', '\r', '\n'] hm)), h2, List.append_nil]
  have hok : ¬ Spec.BadHost U host → styleByUrl U P doc (scheme ++ s% "://" ++ host ++ rest) =
      .ok (getStyleByUrl P doc (scheme ++ s% "://" ++ host ++ rest)) := by
    intro h
    rw [badHost_iff, Classical.not_not] at h
    exact styleByUrl_ok U P doc _ (by rw [hp]; exact h)
  refine ⟨⟨fun h => Classical.byContradiction fun hn => ?_, fun h => ?_⟩, hok⟩
  · rw [hok hn] at h
    cases h
  · unfold styleByUrl
    rw [urlsplit_eq, hp, if_neg ((badHost_iff U host).mp h)]

private theorem dropWhile_blank {b u : Str} (hb : ∀ c ∈ b, c.toNat ≤ 32) (hu : ∀ c, u.head? = some c → 32 < c.toNat) :
    (b ++ u).dropWhile c0OrSpace = u := by
  induction b with
  | nil =>
    cases u with
    | nil => rfl
    | cons c r =>
      have := hu c rfl
      exact List.dropWhile_cons_of_neg (by simp only [c0OrSpace, decide_eq_true_eq]; omega)
  | cons c r ih =>
    rw [List.cons_append, List.dropWhile_cons_of_pos (by simpa only [c0OrSpace, decide_eq_true_eq] using hb c (by simp))]
    exact ih fun x hx => hb x (by simp [hx])

private theorem blank_dropWhile (url : Str) : ∀ c, (url.dropWhile c0OrSpace).head? = some c → 32 < c.toNat := by
  induction url with
  | nil => intro c h; cases h
  | cons d r ih =>
    rw [List.dropWhile_cons]
    split
    · exact ih
    · rename_i hd
      intro c h
      simp only [List.head?_cons, Option.some.injEq] at h
      subst h
      simp only [c0OrSpace, decide_eq_true_eq] at hd
      omega

private theorem urlSafe_spec (s : Str) : s.filter (fun c => decide (c ≠ '\t' ∧ c ≠ '\r' ∧ c ≠ '\n')) = urlSafe s := by
  unfold urlSafe
  refine List.filter_congr fun c _ => ?_
  simp

/-- What `dropScheme` removes is nothing, or a scheme and its colon. -/
private theorem dropScheme_is (s : Str) : dropScheme s = s ∨ ∃ h, Spec.Scheme h ∧ s = h ++ ':' :: dropScheme s := by
  by_cases hc : ':' ∈ s
  · obtain ⟨r, hr⟩ := dropWhile_colon s hc
    have hs : s = s.takeWhile (fun c => decide (c ≠ ':')) ++ ':' :: r := by rw [← hr, List.takeWhile_append_dropWhile]
    by_cases h : ((s.takeWhile fun c => decide (c ≠ ':')).head?.map asciiAlpha == some true) = true ∧
        (s.takeWhile fun c => decide (c ≠ ':')).all schemeChar = true
    · right
      have hS : Spec.Scheme (s.takeWhile fun c => decide (c ≠ ':')) := by
        revert h
        cases s.takeWhile fun c => decide (c ≠ ':') with
        | nil => simp
        | cons c t =>
          intro h
          simp only [List.head?_cons, Option.map_some, beq_iff_eq, Option.some.injEq, List.all_cons, Bool.and_eq_true, List.all_eq_true] at h
          refine ⟨c, t, rfl, ?_, fun x hx => ?_⟩
          · have := h.1
            rw [asciiAlpha, decide_eq_true_eq] at this
            exact this
          · have := h.2.2 x hx
            simp only [schemeChar, asciiAlpha, Bool.or_eq_true, decide_eq_true_eq, List.mem_cons, List.not_mem_nil, or_false] at this
            rcases this with (h | h) | h
            · exact .inl h
            · exact .inr (.inl h)
            · exact .inr (.inr h)
      refine ⟨_, hS, ?_⟩
      have : dropScheme s = r := by
        conv => lhs; rw [hs]
        exact dropScheme_scheme hS
      rw [this]; exact hs
    · left
      unfold dropScheme
      simp only []
      rw [if_neg]
      simp only [Bool.and_eq_true, decide_eq_true_eq]
      exact fun hx => h ⟨hx.1.2, hx.2⟩
  · left
    unfold dropScheme
    simp [hc]

private theorem dropScheme_slash (u : Str) : dropScheme ('/' :: u) = '/' :: u := by
  rcases dropScheme_is ('/' :: u) with h | ⟨t, ⟨c, r, rfl, hc, _⟩, h⟩
  · exact h
  · exfalso
    simp only [List.cons_append, List.cons.injEq] at h
    obtain ⟨rfl, _⟩ := h
    revert hc
    unfold Spec.Letter
    decide

private theorem takeWhile_head {p : Char → Bool} {a b : Str} (ha : ∀ c ∈ a, p c = true) (hb : ∀ c, b.head? = some c → p c = false) :
    (a ++ b).takeWhile p = a := by
  rw [List.takeWhile_append_of_pos ha]
  cases b with
  | nil => simp
  | cons c r => rw [List.takeWhile_cons_of_neg (by simp [hb c rfl]), List.append_nil]

private theorem head_dropWhile {p : Char → Bool} (s : Str) : ∀ c, (s.dropWhile p).head? = some c → p c = false := by
  induction s with
  | nil => intro c h; cases h
  | cons d r ih =>
    rw [List.dropWhile_cons]
    split
    · exact ih
    · rename_i hd
      intro c h
      simp only [List.head?_cons, Option.some.injEq] at h
      subst h
      simpa using hd

private theorem parts_host {url host : Str} (h : Spec.HostOf url host) : (parts url).1 = host := by
  obtain ⟨b, u, sch, rest, rfl, hb, hu, hf, hs, hh, hr⟩ := h
  rw [urlSafe_spec] at hf
  have hd : dropScheme (urlSafe u) = s% "//" ++ (host ++ rest) := by
    rw [hf]
    rcases hs with rfl | ⟨s, hs, rfl⟩
    · exact dropScheme_slash _
    · rw [show s ++ [':'] ++ s% "//" ++ host ++ rest = s ++ ':' :: (s% "//" ++ (host ++ rest)) by simp]
      exact dropScheme_scheme hs
  unfold parts
  simp only [dropWhile_blank hb hu, hd]
  rw [if_pos (by rfl)]
  unfold splitNetloc
  simp only [List.cons_append, List.nil_append, List.drop_succ_cons, List.drop_zero]
  refine takeWhile_head (fun c hc => ?_) (fun c hc => ?_)
  · simpa using hh c hc
  · have := hr c hc
    rw [decide_eq_false_iff_not, Classical.not_not]
    simpa only [List.mem_cons, List.not_mem_nil, or_false] using this

private theorem host_parts {url : Str} (h : (parts url).1 ≠ []) : Spec.HostOf url (parts url).1 := by
  unfold parts at h ⊢
  simp only [] at h ⊢
  have hs := dropScheme_is (urlSafe (url.dropWhile c0OrSpace))
  rw [← urlSafe_spec] at hs
  rw [← urlSafe_spec] at h ⊢
  generalize hv : dropScheme _ = v at *
  split at h
  · rename_i h2
    rw [if_pos h2]
    have hd : v = s% "//" ++ ((splitNetloc v).1 ++ (splitNetloc v).2) := by
      unfold splitNetloc
      simp only [List.takeWhile_append_dropWhile]
      conv => lhs; rw [← List.take_append_drop 2 v, h2]
    have key : ∀ scheme : Str, (scheme = [] ∨ ∃ s, Spec.Scheme s ∧ scheme = s ++ [':']) →
        (url.dropWhile c0OrSpace).filter (fun c => decide (c ≠ '\t' ∧ c ≠ '\r' ∧ c ≠ '\n')) = scheme ++ v →
        Spec.HostOf url (splitNetloc v).1 := by
      intro scheme h1 h2
      refine ⟨url.takeWhile c0OrSpace, url.dropWhile c0OrSpace, scheme, (splitNetloc v).2,
        (List.takeWhile_append_dropWhile).symm, fun c hc => by simpa only [c0OrSpace, decide_eq_true_eq] using takeWhile_holds hc,
        blank_dropWhile url, ?_, h1, ?_, ?_⟩
      · rw [h2]
        conv => lhs; rw [hd]
        simp
      · intro c hc
        have := takeWhile_holds hc
        simpa using this
      · intro c hc
        have := head_dropWhile _ c hc
        rw [decide_eq_false_iff_not, Classical.not_not] at this
        simpa only [List.mem_cons, List.not_mem_nil, or_false] using this
    rcases hs with hs | ⟨s, hS, hs⟩
    · exact key [] (.inl rfl) hs.symm
    · exact key (s ++ [':']) (.inr ⟨s, hS, rfl⟩) (by rw [hs]; simp)
  · exact absurd rfl h

/-- A url has one host at most. -/
theorem hostOf_one {url h h' : Str} (a : Spec.HostOf url h) (b : Spec.HostOf url h') : h = h' :=
  (parts_host a).symm.trans (parts_host b)

/-- **C36.** `get_style_by_url` raises for the urls with a refused host, and for no other: it
is `ValueError`, and otherwise the result is the one of the theorems of `Find`. -/
theorem C36_url_raises (U : UrlLib) (P : Look F) (doc : Val Cls F) (url : Str) :
    ((∃ host, Spec.HostOf url host ∧ Spec.BadHost U host) → styleByUrl U P doc url = .error .valueError) ∧
      ((∀ host, Spec.HostOf url host → ¬ Spec.BadHost U host) → styleByUrl U P doc url = .ok (getStyleByUrl P doc url)) := by
  constructor
  · rintro ⟨host, h, hb⟩
    unfold styleByUrl
    rw [urlsplit_eq, parts_host h, if_neg ((badHost_iff U host).mp hb)]
  · intro h
    refine styleByUrl_ok U P doc _ ?_
    by_cases hn : (parts url).1 = []
    · rw [hn]; exact ⟨rfl, rfl⟩
    · have := h _ (host_parts hn)
      rwa [badHost_iff, Classical.not_not] at this

/-! ## Cases -/

private def someLib : UrlLib := ⟨fun _ => true, id⟩

example : urlsplit someLib (s% "http://example.com/styles.kml#s1") = .ok (s% "example.com", s% "s1") := by decide +kernel
example : urlsplit someLib (s% " http://[::1]:80?x#a//[b#c") = .ok (s% "[::1]:80", s% "a//[b#c") := by decide +kernel
example : ((s% "http://example.com/styles.kml#[ä").takeWhile fun c => decide (c ≠ '#')).all
    (fun c => decide (c.toNat < 128 ∧ c ≠ '[' ∧ c ≠ ']')) = true := by decide +kernel
example : (∀ c ∈ s% "a.b", c ∉ ['/', '?', '#', ']', '\t', '\r', '\n']) ∧
    urlsplit someLib (s% "http://[a.b/styles.kml#s1") = .error .valueError := ⟨by decide +kernel, by decide +kernel⟩

example : Spec.Scheme (s% "http") ∧ (∀ c ∈ s% "a]", c ∉ ['/', '?', '#', '\t', '\r', '\n']) ∧ Spec.BadHost someLib (s% "a]") :=
  ⟨⟨'h', s% "ttp", rfl, .inr (by decide), by unfold Spec.Letter; decide⟩, by decide, .closed (by decide) (by decide)⟩
/-- The host of a url with an address. -/
example : ¬ Spec.BadHost someLib (s% "[::1]:80") := by
  rw [badHost_iff, Classical.not_not]
  decide
/-- The hosts of an absolute and of a relative url. -/
example : Spec.HostOf (s% " ht\ntp://a]:80?//b#c") (s% "a]:80") :=
  ⟨s% " ", s% "ht\ntp://a]:80?//b#c", s% "http:", s% "?//b#c", rfl, by decide, by simp, by decide,
    .inr ⟨s% "http", ⟨'h', s% "ttp", rfl, .inr (by decide), by unfold Spec.Letter; decide⟩, rfl⟩, by decide, by simp⟩
example : Spec.HostOf (s% "//a") (s% "a") := ⟨[], s% "//a", [], [], rfl, by simp, by simp, rfl, .inl rfl, by decide, by simp⟩
example : ∀ h, ¬ Spec.HostOf (s% "a.kml#//b[") h := fun h hh => by
  obtain ⟨b, u, sch, rest, he, hb, hu, hf, hs, hh, hr⟩ := hh
  have hb' : b = [] := by
    cases b with
    | nil => rfl
    | cons c r =>
      simp only [List.cons_append, List.cons.injEq] at he
      exact absurd (hb c (by simp)) (by rw [← he.1]; decide)
  subst hb'
  rw [List.nil_append] at he
  subst he
  rcases hs with rfl | ⟨s, _, rfl⟩
  · simp at hf
  · have : ':' ∈ (s% "a.kml#//b[").filter (fun c => decide (c ≠ '\t' ∧ c ≠ '\r' ∧ c ≠ '\n')) := by rw [hf]; simp
    exact absurd this (by decide)

end Verif
