import Verif.Std

/-!
# No proper beginning of a document is a document

For the reader of `Std.lean`: characters, tokens, elements and bytes.
-/

set_option linter.unusedSectionVars false
set_option linter.unusedSimpArgs false

namespace Verif.Std

theorem dropWhile_more {p : Char → Bool} {s : Str} {c : Char} {r : Str} (h : s.dropWhile p = c :: r) (x : Str) :
    (s ++ x).dropWhile p = c :: (r ++ x) ∧ (s ++ x).takeWhile p = s.takeWhile p := by
  induction s with
  | nil => cases h
  | cons d t ih =>
    rw [List.cons_append]
    by_cases hd : p d = true
    · rw [List.dropWhile_cons_of_pos hd] at h ⊢
      rw [List.takeWhile_cons_of_pos hd, List.takeWhile_cons_of_pos hd, (ih h).2]
      exact ⟨(ih h).1, rfl⟩
    · rw [List.dropWhile_cons_of_neg hd] at h ⊢
      rw [List.takeWhile_cons_of_neg hd, List.takeWhile_cons_of_neg hd]
      cases h
      exact ⟨rfl, rfl⟩

theorem dropWhile_last {p : Char → Bool} {s : Str} {c : Char} {r : Str} (h : s.dropWhile p = c :: r) : ∃ a, s = a ++ c :: r :=
  ⟨s.takeWhile p, by rw [← h, List.takeWhile_append_dropWhile]⟩

theorem lexAttrs_blank (n : Nat) {r : Str} (h : ∀ w, r ≠ '/' :: '>' :: w) {r2 r3 : Str} (h2 : r.dropWhile (fun c => c != '=') = '=' :: '"' :: r2)
    (h3 : r2.dropWhile (fun c => c != '"') = '"' :: r3) : lexAttrs (n + 1) (' ' :: r) = (lexAttrs n r3).map fun p =>
      ((r.takeWhile (fun c => c != '='), unesc ((r2.takeWhile (fun c => c != '"')).map flat)) :: p.1, p.2) := by
  conv => lhs; unfold lexAttrs
  split
  · rename_i hw; cases hw
  · rename_i w hw
    cases hw
    exact absurd rfl (h _)
  · rename_i hw
    cases hw
    rw [h2]
    simp only []
    rw [h3]
    rfl
  · rename_i h4
    exact absurd rfl (h4 _)

theorem lexAttrs_more {n : Nat} : ∀ {s : Str} {as : List (Str × Str)} {b : Bool} {r : Str}, lexAttrs n s = some (as, b, r) →
    ∀ {m : Nat}, n ≤ m → ∀ x, lexAttrs m (s ++ x) = some (as, b, r ++ x) := by
  induction n with
  | zero => intro s as b r h; simp [lexAttrs] at h
  | succ n ih =>
    intro s as b r h m hm x
    obtain ⟨m, rfl⟩ : ∃ k, m = k + 1 := ⟨m - 1, by omega⟩
    unfold lexAttrs at h
    split at h
    · cases h; rfl
    · cases h; rfl
    · rename_i r' hne
      split at h
      · rename_i r2 h2
        split at h
        · rename_i r3 h3
          rw [Option.map_eq_some_iff] at h
          obtain ⟨⟨as', b', r'⟩, h4, h5⟩ := h
          cases h5
          have h6 := ih h4 (m := m) (by omega) x
          obtain ⟨h7, h8⟩ := dropWhile_more h2 x
          obtain ⟨h9, h10⟩ := dropWhile_more h3 x
          rw [List.cons_append, lexAttrs_blank m ?_ h7 h9, h6]
          · rw [h8]
            show some (_ :: _, _, _) = _
            erw [h10]
          · intro w hw
            obtain ⟨a, ha⟩ := dropWhile_last h2
            match a, ha with
            | [], ha => rw [ha] at hw; cases hw
            | [c], ha => rw [ha] at hw; cases hw
            | c :: d :: a, ha =>
              rw [ha] at hw
              cases hw
              exact hne _ (by rw [ha]; rfl)
        · cases h
      · cases h
    · cases h

theorem lexAttrs_last {n : Nat} : ∀ {s : Str} {as : List (Str × Str)} {b : Bool} {r : Str}, lexAttrs n s = some (as, b, r) →
    ∃ a, s = a ++ '>' :: r := by
  induction n with
  | zero => intro s as b r h; simp [lexAttrs] at h
  | succ n ih =>
    intro s as b r h
    unfold lexAttrs at h
    split at h
    · cases h; exact ⟨[], rfl⟩
    · cases h; exact ⟨[' ', '/'], rfl⟩
    · rename_i r' hne
      split at h
      · rename_i r2 h2
        split at h
        · rename_i r3 h3
          rw [Option.map_eq_some_iff] at h
          obtain ⟨⟨as', b', r'⟩, h4, h5⟩ := h
          cases h5
          obtain ⟨a, ha⟩ := ih h4
          obtain ⟨a2, h2⟩ := dropWhile_last h2
          obtain ⟨a3, h3⟩ := dropWhile_last h3
          exact ⟨' ' :: (a2 ++ '=' :: '"' :: (a3 ++ '"' :: a)), by rw [h2, h3, ha]; simp⟩
        · cases h
      · cases h
    · cases h

theorem lex_cons {n : Nat} {c : Char} {r : Str} {ts : List Tok} (h : lex n (c :: r) = some ts) : ∃ t ts', ts = t :: ts' := by
  cases n with
  | zero => simp [lex] at h
  | succ n =>
    unfold lex at h
    split at h
    · split at h
      · split at h
        · obtain ⟨_, _, h⟩ := Option.map_eq_some_iff.mp h; exact ⟨_, _, h.symm⟩
        · cases h
      · split at h
        · obtain ⟨_, _, h⟩ := Option.map_eq_some_iff.mp h; exact ⟨_, _, h.symm⟩
        · cases h
    · obtain ⟨_, _, h⟩ := Option.map_eq_some_iff.mp h; exact ⟨_, _, h.symm⟩

/-- Ends with character data. -/
def EndsTx (ts : List Tok) : Prop := ∃ a y, ts = a ++ [.tx y]

theorem EndsTx.cons {ts : List Tok} (h : EndsTx ts) (t : Tok) : EndsTx (t :: ts) := by
  obtain ⟨a, y, rfl⟩ := h
  exact ⟨t :: a, y, rfl⟩

/-- The tokens of a beginning are a beginning of the tokens, or the last one is an incomplete text. -/
theorem lex_prefix {n : Nat} : ∀ {s : Str} {ts : List Tok}, lex n s = some ts → ∀ {m : Nat} {x : Str} {us : List Tok}, x ≠ [] →
    lex m (s ++ x) = some us → (∃ t b, us = ts ++ t :: b) ∨ EndsTx ts := by
  induction n with
  | zero =>
    intro s ts h m x us hx hu
    cases s with
    | nil =>
      cases x with
      | nil => exact absurd rfl hx
      | cons c x =>
        obtain ⟨t, b, rfl⟩ := lex_cons hu
        simp [lex] at h
        exact .inl ⟨t, b, by rw [h]; rfl⟩
    | cons c r => simp [lex] at h
  | succ n ih =>
    intro s ts h m x us hx hu
    cases s with
    | nil =>
      cases x with
      | nil => exact absurd rfl hx
      | cons c x =>
        obtain ⟨t, b, rfl⟩ := lex_cons hu
        simp [lex] at h
        exact .inl ⟨t, b, by rw [h]; rfl⟩
    | cons c r =>
      cases m with
      | zero => simp [lex] at hu
      | succ m =>
        rw [List.cons_append] at hu
        unfold lex at h hu
        split at h
        · rename_i hc
          rw [if_pos hc] at hu
          split at h
          · rename_i r'
            split at h
            · rename_i r2 h2
              obtain ⟨h3, h4⟩ := dropWhile_more h2 x
              rw [List.cons_append] at hu
              simp only [h3, h4] at hu
              obtain ⟨ts', ht, rfl⟩ := Option.map_eq_some_iff.mp h
              obtain ⟨us', hu', rfl⟩ := Option.map_eq_some_iff.mp hu
              rcases ih ht hx hu' with ⟨t, b, rfl⟩ | h5
              · exact .inl ⟨t, b, rfl⟩
              · exact .inr (h5.cons _)
            · cases h
          · rename_i hne
            split at h
            · rename_i as b r2 h2
              obtain ⟨ts', ht, rfl⟩ := Option.map_eq_some_iff.mp h
              cases hd : r.dropWhile (fun c => c != ' ' && c != '>') with
              | nil => rw [hd] at h2; simp [lexAttrs] at h2
              | cons d r' =>
                obtain ⟨h3, h4⟩ := dropWhile_more hd x
                have h5 := lexAttrs_more h2 (m := (r ++ x).length + 1) (by simp) x
                rw [hd, List.cons_append, ← h3] at h5
                split at hu
                · rename_i r4 hr
                  cases r with
                  | nil => cases hd
                  | cons c' r =>
                    cases hr
                    exact absurd rfl (hne _)
                · simp only [h5, h4] at hu
                  obtain ⟨us', hu', rfl⟩ := Option.map_eq_some_iff.mp hu
                  rcases ih ht hx hu' with ⟨t, b, rfl⟩ | h5
                  · exact .inl ⟨t, b, rfl⟩
                  · exact .inr (h5.cons _)
            · cases h
        · rename_i hc
          rw [if_neg hc] at hu
          obtain ⟨ts', ht, rfl⟩ := Option.map_eq_some_iff.mp h
          cases hd : (c :: r).dropWhile (fun c => c != '<') with
          | nil =>
            rw [hd] at ht
            have : ts' = [] := by
              cases n <;> simpa [lex] using ht.symm
            subst this
            exact .inr ⟨[], _, rfl⟩
          | cons d r' =>
            obtain ⟨h3, h4⟩ := dropWhile_more hd x
            rw [List.cons_append] at h3 h4
            rw [h3, h4] at hu
            obtain ⟨us', hu', rfl⟩ := Option.map_eq_some_iff.mp hu
            rw [hd] at ht
            rcases ih ht hx hu' with ⟨t, b, rfl⟩ | h5
            · exact .inl ⟨t, b, rfl⟩
            · exact .inr (h5.cons _)

/-- A text whose last token is a tag ends with `>`. -/
theorem lex_last {n : Nat} : ∀ {s : Str} {ts : List Tok}, lex n s = some ts → s ≠ [] → EndsTx ts ∨ ∃ a, s = a ++ ['>'] := by
  have step : ∀ {s a r : Str} {t : Tok} {ts : List Tok}, s = a ++ '>' :: r → (r ≠ [] → EndsTx ts ∨ ∃ a, r = a ++ ['>']) →
      EndsTx (t :: ts) ∨ ∃ a, s = a ++ ['>'] := by
    intro s a r t ts hs h
    by_cases hr : r = []
    · subst hr; exact .inr ⟨a, hs⟩
    · rcases h hr with h | ⟨b, rfl⟩
      · exact .inl (h.cons _)
      · exact .inr ⟨a ++ '>' :: b, by rw [hs]; simp⟩
  induction n with
  | zero => intro s ts h hs; cases s with
    | nil => exact absurd rfl hs
    | cons c r => simp [lex] at h
  | succ n ih =>
    intro s ts h hs
    cases s with
    | nil => exact absurd rfl hs
    | cons c r =>
      unfold lex at h
      split at h
      · split at h
        · rename_i r'
          split at h
          · rename_i r2 h2
            obtain ⟨ts', ht, rfl⟩ := Option.map_eq_some_iff.mp h
            obtain ⟨a, ha⟩ := dropWhile_last h2
            exact step (a := c :: '/' :: a) (by rw [ha]; rfl) (ih ht)
          · cases h
        · split at h
          · rename_i as b r2 h2
            obtain ⟨ts', ht, rfl⟩ := Option.map_eq_some_iff.mp h
            obtain ⟨a, ha⟩ := lexAttrs_last h2
            have : r = r.takeWhile (fun c => c != ' ' && c != '>') ++ (a ++ '>' :: r2) := by rw [← ha, List.takeWhile_append_dropWhile]
            exact step (a := c :: (r.takeWhile (fun c => c != ' ' && c != '>') ++ a)) (by rw [List.cons_append, List.append_assoc, ← this]) (ih ht)
          · cases h
      · obtain ⟨ts', ht, rfl⟩ := Option.map_eq_some_iff.mp h
        cases hd : (c :: r).dropWhile (fun c => c != '<') with
        | nil =>
          rw [hd] at ht
          have : ts' = [] := by
            cases n <;> simpa [lex] using ht.symm
          subst this
          exact .inl ⟨[], _, rfl⟩
        | cons d r' =>
          rw [hd] at ht
          obtain ⟨a, ha⟩ := dropWhile_last hd
          rcases ih ht (by simp) with h5 | ⟨b, hb⟩
          · exact .inl (h5.cons _)
          · exact .inr ⟨a ++ b, by rw [ha, hb, List.append_assoc]⟩

theorem build_step {t : Tok} {ts : List Tok} {fs : List Frame} {e : Xml} (h : build (t :: ts) fs = some e) :
    (ts = [] ∧ (∀ y, t ≠ .tx y) ∧ ∀ u b, build (t :: u :: b) fs = none) ∨
      ∃ fs', build ts fs' = some e ∧ ∀ us, build (t :: us) fs = build us fs' := by
  cases t with
  | op q as b =>
    cases fs with
    | nil =>
      simp only [build] at h ⊢
      split at h
      · rename_i f hf
        cases b with
        | true =>
          simp only [if_true] at h
          split at h
          · rename_i hr
            exact .inl ⟨hr, by simp, by simp⟩
          · cases h
        | false => exact .inr ⟨[f], by simpa using h, by simp⟩
      · cases h
    | cons g fs =>
      simp only [build] at h ⊢
      split at h
      · rename_i f hf
        cases b with
        | true => exact .inr ⟨_, by simpa using h, by simp⟩
        | false => exact .inr ⟨_, by simpa using h, by simp⟩
      · cases h
  | tx y =>
    cases fs with
    | nil => simp [build] at h
    | cons f fs =>
      simp only [build] at h ⊢
      exact .inr ⟨_, h, fun _ => rfl⟩
  | cl q =>
    match fs with
    | [] => simp [build] at h
    | [f] =>
      simp only [build] at h ⊢
      split at h
      · rename_i hr
        exact .inl ⟨hr.2, by simp, by simp⟩
      · cases h
    | f :: g :: fs =>
      simp only [build] at h ⊢
      split at h
      · rename_i hq
        exact .inr ⟨_, h, fun _ => by simp [hq]⟩
      · cases h

theorem build_tx {ts : List Tok} : ∀ {fs : List Frame} {e : Xml}, build ts fs = some e → ¬ EndsTx ts := by
  induction ts with
  | nil => intro fs e h; simp [build] at h
  | cons t ts ih =>
    rintro fs e h ⟨a, y, ha⟩
    rcases build_step h with ⟨rfl, hn, _⟩ | ⟨fs', h1, _⟩
    · cases a with
      | nil => cases ha; exact hn _ rfl
      | cons b a => simp at ha
    · cases a with
      | nil => cases ha; simp [build] at h1
      | cons b a => cases ha; exact ih h1 ⟨a, y, rfl⟩

theorem build_more {ts : List Tok} : ∀ {fs : List Frame} {e : Xml}, build ts fs = some e → ∀ t b, build (ts ++ t :: b) fs = none := by
  induction ts with
  | nil => intro fs e h; simp [build] at h
  | cons u ts ih =>
    intro fs e h t b
    rcases build_step h with ⟨rfl, _, hn⟩ | ⟨fs', h1, h2⟩
    · exact hn t b
    · rw [List.cons_append, h2]
      exact ih h1 t b

/-- Line ends of a beginning. -/
theorem lineEnds_more : ∀ (b : Bool) (s x : Str), ∃ b', lineEnds b (s ++ x) = lineEnds b s ++ lineEnds b' x ∧
    (b' = true → (s = [] ∧ b = true) ∨ ∃ a, lineEnds b s = a ++ ['\n'])
  | b, [], x => ⟨b, rfl, fun h => .inl ⟨rfl, h⟩⟩
  | b, c :: s, x => by
    simp only [List.cons_append, lineEnds]
    split
    · obtain ⟨b', h1, h2⟩ := lineEnds_more true s x
      refine ⟨b', by rw [h1]; rfl, fun hb => .inr ?_⟩
      rcases h2 hb with ⟨rfl, _⟩ | ⟨a, ha⟩
      · exact ⟨[], rfl⟩
      · exact ⟨'\n' :: a, by rw [ha]; rfl⟩
    · split
      · obtain ⟨b', h1, h2⟩ := lineEnds_more false s x
        refine ⟨b', h1, fun hb => .inr ?_⟩
        rcases h2 hb with ⟨_, h⟩ | h
        · cases h
        · exact h
      · obtain ⟨b', h1, h2⟩ := lineEnds_more false s x
        refine ⟨b', by rw [h1]; rfl, fun hb => .inr ?_⟩
        rcases h2 hb with ⟨_, h⟩ | ⟨a, ha⟩
        · cases h
        · exact ⟨c :: a, by rw [ha]; rfl⟩

theorem lineEnds_ne {x : Str} (h : x ≠ []) : lineEnds false x ≠ [] := by
  cases x with
  | nil => exact absurd rfl h
  | cons c r =>
    simp only [lineEnds]
    split
    · simp
    · simp

/-- **No proper beginning of a document is a document.** -/
theorem fromstring_prefix {s x : Str} (hx : x ≠ []) {e e' : Xml} (h : fromstring (s ++ x) = .ok e) : fromstring s ≠ .ok e' := by
  intro h'
  have key : ∀ {s : Str} {e : Xml}, fromstring s = .ok e → ∃ ts, lex (s.length + 1) (lineEnds false s) = some ts ∧ build ts [] = some e := by
    intro s e h
    unfold fromstring at h
    split at h
    · cases h
    · rename_i ts hts
      split at h
      · cases h
      · rename_i e' he
        cases h
        exact ⟨ts, hts, he⟩
  obtain ⟨us, hu, hbu⟩ := key h
  obtain ⟨ts, ht, hbt⟩ := key h'
  obtain ⟨b', h1, h2⟩ := lineEnds_more false s x
  have hb : b' = false := by
    cases b' with
    | false => rfl
    | true =>
      rcases h2 rfl with ⟨_, h⟩ | ⟨a, ha⟩
      · cases h
      · exfalso
        have hne : lineEnds false s ≠ [] := by rw [ha]; simp
        rcases lex_last ht hne with h3 | ⟨a', ha'⟩
        · exact build_tx hbt h3
        · rw [ha] at ha'
          have := congrArg List.getLast? ha'
          simp at this
  rw [h1, hb] at hu
  rcases lex_prefix ht (lineEnds_ne hx) hu with ⟨t, b, rfl⟩ | h3
  · rw [build_more hbt] at hbu; cases hbu
  · exact build_tx hbt h3

theorem fromstring_error {s : Str} (h : ∀ e, fromstring s ≠ .ok e) : fromstring s = .error (.xml 0) := by
  unfold fromstring at h ⊢
  split
  · rfl
  · split
    · rfl
    · rename_i ts hts _ e he
      simp only [hts, he] at h
      exact absurd rfl (h e)

/-- The same for bytes. -/
theorem parseFile_prefix {b : Bytes} {t : Str} {e : Xml} (h : fromstring t = .ok e) (hb : b <+: utf8 t) (hn : b ≠ utf8 t) :
    parseFile (.plain b) = .error (.xml 0) := by
  simp only [parseFile]
  split
  · rename_i a ha
    have h1 : a.toList.utf8Encode = b.toByteArray := by
      have := ByteArray.utf8Encode_get_utf8Decode? (b := b.toByteArray) (h := by rw [ha]; rfl)
      simpa [ha] using this
    obtain ⟨r, hr⟩ := hb
    have h2 : a.toList.utf8Encode ++ r.toByteArray = t.utf8Encode := by
      rw [h1]
      show _ = (utf8 t).toByteArray
      rw [← hr, List.toByteArray_append]
    obtain ⟨x, hx⟩ := List.isPrefix_of_utf8Encode_append_eq_utf8Encode _ h2
    refine fromstring_error fun e' => fromstring_prefix (x := x) ?_ (by rw [hx]; exact h)
    rintro rfl
    rw [List.append_nil] at hx
    rw [hx] at h1
    refine hn ?_
    have : (utf8 t).toByteArray = b.toByteArray := h1
    have := congrArg (fun a : ByteArray => a.data.toList) this
    simpa using this.symm
  · rfl

end Verif.Std
