import Verif.Std
import Verif.XmlInst

/-!
# `xml.etree.ElementTree` reads what it writes
-/

set_option linter.unusedSectionVars false
set_option linter.unusedSimpArgs false

namespace Verif.Std

open Spec
open Lib (takeWhile_stop nameChar_ok legalName_chars legalName_ne node_split)

/-! ## Characters -/

theorem unesc_cdata (s r : Str) : (cdata s ++ r).foldr unescStep [] = s ++ r.foldr unescStep [] := by
  induction s with
  | nil => rfl
  | cons c s ih =>
    simp only [cdata, List.flatMap_cons, List.append_assoc] at ih ⊢
    rw [List.foldr_append, ih]
    unfold cdataChar
    by_cases h1 : c = '&'
    · subst h1; rfl
    · by_cases h2 : c = '<'
      · subst h2; rfl
      · by_cases h3 : c = '>'
        · subst h3; rfl
        · simp [h1, h2, h3, unescStep]

theorem unesc_attrib (s r : Str) : (attrib s ++ r).foldr unescStep [] = s ++ r.foldr unescStep [] := by
  induction s with
  | nil => rfl
  | cons c s ih =>
    simp only [attrib, List.flatMap_cons, List.append_assoc] at ih ⊢
    rw [List.foldr_append, ih]
    unfold attribChar
    by_cases h1 : c = '&'
    · subst h1; rfl
    · by_cases h2 : c = '<'
      · subst h2; rfl
      · by_cases h3 : c = '>'
        · subst h3; rfl
        · by_cases h4 : c = '"'
          · subst h4; rfl
          · by_cases h5 : c = '\r'
            · subst h5; rfl
            · by_cases h6 : c = '\n'
              · subst h6; rfl
              · by_cases h7 : c = '\t'
                · subst h7; rfl
                · simp [h1, h2, h3, h4, h5, h6, h7, unescStep]

theorem unesc_cdata_eq (s : Str) : unesc (cdata s) = s := by
  have := unesc_cdata s []
  simpa [unesc] using this

theorem unesc_attrib_eq (s : Str) : unesc (attrib s) = s := by
  have := unesc_attrib s []
  simpa [unesc] using this

theorem cdata_chars {s : Str} {c : Char} (h : c ∈ cdata s) : c ≠ '<' := by
  unfold cdata at h
  obtain ⟨x, _, hx⟩ := List.mem_flatMap.mp h
  unfold cdataChar at hx
  rintro rfl
  by_cases h1 : x = '&'
  · simp [h1] at hx
  · by_cases h2 : x = '<'
    · simp [h1, h2] at hx
    · by_cases h3 : x = '>'
      · simp [h1, h2, h3] at hx
      · simp only [h1, h2, h3, if_false, List.mem_singleton] at hx
        exact h2 hx.symm

theorem attrib_chars {s : Str} {c : Char} (h : c ∈ attrib s) : c ≠ '"' ∧ c ≠ '\t' ∧ c ≠ '\n' ∧ c ≠ '\r' := by
  unfold attrib at h
  obtain ⟨x, _, hx⟩ := List.mem_flatMap.mp h
  unfold attribChar at hx
  have dec : ∀ y : Str, (y.all fun c => c != '"' && c != '\t' && c != '\n' && c != '\r') = true → c ∈ y →
      c ≠ '"' ∧ c ≠ '\t' ∧ c ≠ '\n' ∧ c ≠ '\r' := by
    intro y hy hc
    have := List.all_eq_true.mp hy c hc
    simp only [Bool.and_eq_true, bne_iff_ne] at this
    exact ⟨this.1.1.1, this.1.1.2, this.1.2, this.2⟩
  by_cases h1 : x = '&'
  · simp only [h1, if_true] at hx; exact dec _ (by decide) hx
  · by_cases h2 : x = '<'
    · simp only [h1, h2, if_false, if_true] at hx; exact dec _ (by decide) hx
    · by_cases h3 : x = '>'
      · simp only [h1, h2, h3, if_false, if_true] at hx; exact dec _ (by decide) hx
      · by_cases h4 : x = '"'
        · simp only [h1, h2, h3, h4, if_false, if_true] at hx; exact dec _ (by decide) hx
        · by_cases h5 : x = '\r'
          · simp only [h1, h2, h3, h4, h5, if_false, if_true] at hx; exact dec _ (by decide) hx
          · by_cases h6 : x = '\n'
            · simp only [h1, h2, h3, h4, h5, h6, if_false, if_true] at hx; exact dec _ (by decide) hx
            · by_cases h7 : x = '\t'
              · simp only [h1, h2, h3, h4, h5, h6, h7, if_false, if_true] at hx; exact dec _ (by decide) hx
              · simp only [h1, h2, h3, h4, h5, h6, h7, if_false, List.mem_singleton] at hx
                rw [hx]
                exact ⟨h4, h7, h6, h5⟩

theorem flat_attrib (s : Str) : (attrib s).map flat = attrib s := by
  have : ∀ c ∈ attrib s, flat c = id c := by
    intro c hc
    obtain ⟨_, h1, h2, h3⟩ := attrib_chars hc
    simp [flat, h1, h2, h3]
  rw [List.map_congr_left this, List.map_id]

/-- Escaping makes no carriage returns. -/
theorem cdata_cr {s : Str} (h : '\r' ∉ s) : '\r' ∉ cdata s := by
  intro hc
  obtain ⟨x, hx, hc⟩ := List.mem_flatMap.mp hc
  unfold cdataChar at hc
  by_cases h1 : x = '&'
  · simp only [h1, if_true] at hc; exact absurd hc (by decide)
  · by_cases h2 : x = '<'
    · simp only [h1, h2, if_false, if_true] at hc; exact absurd hc (by decide)
    · by_cases h3 : x = '>'
      · simp only [h1, h2, h3, if_false, if_true] at hc; exact absurd hc (by decide)
      · simp only [h1, h2, h3, if_false, List.mem_singleton] at hc
        exact h (hc ▸ hx)

theorem lineEnds_eq {s : Str} (h : '\r' ∉ s) : lineEnds false s = s := by
  induction s with
  | nil => rfl
  | cons c s ih =>
    simp only [List.mem_cons, not_or] at h
    rw [lineEnds, if_neg (fun hc => h.1 hc.symm), if_neg (by simp), ih h.2]

theorem cdata_ne_nil {s : Str} (h : s ≠ []) : cdata s ≠ [] := by
  cases s with
  | nil => exact absurd rfl h
  | cons c s =>
    simp only [cdata, List.flatMap_cons]
    intro h0
    have := (List.append_eq_nil_iff.mp h0).1
    unfold cdataChar at this
    split at this
    · cases this
    · split at this
      · cases this
      · split at this
        · cases this
        · cases this

/-! ## Tokens -/

/-- A token as text. -/
def Tok.print : Tok → Str
  | .op q as b => '<' :: (q ++ (attrText as ++ if b then s% " />" else s% ">"))
  | .cl q => '<' :: '/' :: (q ++ ['>'])
  | .tx s => cdata s

/-- The name of an attribute can be read. -/
def KeyOk (k : Str) : Prop := k ≠ [] ∧ k.head? ≠ some '/' ∧ ∀ c ∈ k, c ≠ '=' ∧ c ≠ '\r'

/-- The names of a token can be read. -/
def Tok.Ok : Tok → Prop
  | .op q as _ => q ≠ [] ∧ q.head? ≠ some '/' ∧ (∀ c ∈ q, (c ≠ ' ' ∧ c ≠ '>') ∧ c ≠ '\r') ∧ ∀ p ∈ as, KeyOk p.1
  | .cl q => ∀ c ∈ q, c ≠ '>' ∧ c ≠ '\r'
  | .tx s => s ≠ [] ∧ '\r' ∉ s

/-- Not character data. -/
def Tok.isTag : Tok → Bool
  | .tx _ => false
  | _ => true

/-- The tokens can be read, and no two are character data in sequence. -/
def Lexed : List Tok → Prop
  | [] => True
  | [t] => t.Ok ∧ t.isTag = true
  | t :: u :: r => t.Ok ∧ (t.isTag = true ∨ u.isTag = true) ∧ Lexed (u :: r)

theorem lexAttrs_print (as : List (Str × Str)) (h : ∀ p ∈ as, KeyOk p.1) (b : Bool) (r : Str) (n : Nat)
    (hn : as.length < n) :
    lexAttrs n (attrText as ++ ((if b then s% " />" else s% ">") ++ r)) = some (as, b, r) := by
  induction as generalizing n with
  | nil =>
    obtain ⟨m, rfl⟩ : ∃ m, n = m + 1 := ⟨n - 1, by simp at hn; omega⟩
    cases b <;> rfl
  | cons p as ih =>
    obtain ⟨m, rfl⟩ : ∃ m, n = m + 1 := ⟨n - 1, by simp at hn; omega⟩
    obtain ⟨hk0, hk1, hk2⟩ := h p (by simp)
    have hk := takeWhile_stop (p := fun c => c != '=') (s := p.1) (c := '=')
      (r := '"' :: (attrib p.2 ++ '"' :: (attrText as ++ ((if b then s% " />" else s% ">") ++ r))))
      (fun x hx => by simpa using (hk2 x hx).1) (by decide)
    have hv := takeWhile_stop (p := fun c => c != '"') (s := attrib p.2) (c := '"')
      (r := attrText as ++ ((if b then s% " />" else s% ">") ++ r))
      (fun x hx => by simpa using (attrib_chars hx).1) (by decide)
    have := ih (fun q hq => h q (by simp [hq])) m (by simp at hn; omega)
    simp only [attrText, List.cons_append, List.append_assoc, lexAttrs]
    obtain ⟨c, k', hp⟩ : ∃ c k', p.1 = c :: k' := by
      cases hp : p.1 with
      | nil => exact absurd hp hk0
      | cons c k' => exact ⟨c, k', rfl⟩
    have hc : c ≠ '/' := by rw [hp] at hk1; simpa using hk1
    split
    · rename_i heq
      simp at heq
    · rename_i heq
      rw [hp] at heq
      simp only [List.cons_append, List.cons.injEq, true_and] at heq
      exact absurd heq.1 hc
    · rename_i r' _ heq
      simp only [List.cons.injEq, true_and] at heq
      subst heq
      simp only [hk.1, hk.2, hv.1, hv.2, this, flat_attrib, unesc_attrib_eq, Option.map_some]
    · rename_i h1
      exact absurd rfl (h1 _)

theorem attrText_length (as : List (Str × Str)) : as.length ≤ (attrText as).length := by
  induction as with
  | nil => simp [attrText]
  | cons p as ih => simp [attrText]; omega

theorem tag_print (t : Tok) (h : t.isTag = true) : ∃ r, t.print = '<' :: r := by
  cases t <;> simp [Tok.isTag, Tok.print] at h ⊢

theorem lex_print (ts : List Tok) (h : Lexed ts) (n : Nat) (hn : ts.length ≤ n) :
    lex n (ts.flatMap Tok.print) = some ts := by
  induction ts generalizing n with
  | nil => cases n <;> rfl
  | cons t ts ih =>
    obtain ⟨m, rfl⟩ : ∃ m, n = m + 1 := ⟨n - 1, by simp at hn; omega⟩
    have hok : t.Ok ∧ (t.isTag = true ∨ ∃ u r, ts = u :: r ∧ u.isTag = true) ∧ Lexed ts := by
      cases ts with
      | nil => exact ⟨h.1, Or.inl h.2, trivial⟩
      | cons u r => exact ⟨h.1, h.2.1.imp id fun hu => ⟨u, r, rfl, hu⟩, h.2.2⟩
    obtain ⟨hok, hnext, hrest⟩ := hok
    have ih := ih hrest m (by simp at hn; omega)
    rw [List.flatMap_cons]
    cases t with
    | op q as b =>
      obtain ⟨hq0, hq1, hq, has⟩ := hok
      simp only [Tok.print, List.cons_append, List.append_assoc, lex, if_true]
      obtain ⟨c, q', rfl⟩ : ∃ c q', q = c :: q' := by
        cases q with
        | nil => exact absurd rfl hq0
        | cons c q' => exact ⟨c, q', rfl⟩
      have hstop : ∃ y z, attrText as ++ ((if b then s% " />" else s% ">") ++ List.flatMap Tok.print ts) = y :: z ∧
          (y != ' ' && y != '>') = false := by
        cases as with
        | nil => cases b <;> exact ⟨_, _, rfl, by decide⟩
        | cons p as => exact ⟨_, _, rfl, by decide⟩
      obtain ⟨y, z, hyz, hy⟩ := hstop
      have htk := takeWhile_stop (p := fun c => c != ' ' && c != '>') (s := c :: q') (c := y) (r := z)
        (fun x hx => by have := (hq x hx).1; simp [this.1, this.2]) hy
      have hlen : as.length < (c :: q' ++ (attrText as ++
          ((if b then s% " />" else s% ">") ++ List.flatMap Tok.print ts))).length + 1 := by
        have := attrText_length as
        simp only [List.length_append, List.length_cons]
        omega
      have hla := lexAttrs_print as has b (List.flatMap Tok.print ts) _ hlen
      have hc : c ≠ '/' := by simpa using hq1
      split
      · rename_i r' heq
        simp only [List.cons_append, List.cons.injEq] at heq
        exact absurd heq.1 hc
      · rename_i r' _
        rw [hyz] at hla
        rw [hyz, htk.1, htk.2, hla]
        simp only [ih, Option.map_some]
    | cl q =>
      have htk := takeWhile_stop (p := fun c => c != '>') (s := q) (c := '>') (r := List.flatMap Tok.print ts)
        (fun x hx => by simpa using (hok x hx).1) (by decide)
      simp only [Tok.print, List.cons_append, List.append_assoc, lex, if_true, List.nil_append, htk.1, htk.2, ih,
        Option.map_some]
    | tx s =>
      rcases hnext with hnext | ⟨u, r, rfl, hu⟩
      · cases hnext
      · obtain ⟨z, hz⟩ := tag_print u hu
        simp only [Tok.print]
        obtain ⟨c, s', hs⟩ : ∃ c s', cdata s = c :: s' := by
          cases hs : cdata s with
          | nil => exact absurd hs (cdata_ne_nil hok.1)
          | cons c s' => exact ⟨c, s', rfl⟩
        have hc : c ≠ '<' := cdata_chars (s := s) (by rw [hs]; simp)
        have htk := takeWhile_stop (p := fun c => c != '<') (s := cdata s) (c := '<')
          (r := z ++ List.flatMap Tok.print r)
          (fun x hx => by simpa using cdata_chars hx) (by decide)
        have hfl : List.flatMap Tok.print (u :: r) = '<' :: (z ++ List.flatMap Tok.print r) := by
          rw [List.flatMap_cons, hz]; rfl
        rw [hfl] at ih
        rw [hfl]
        conv => lhs; rw [hs, List.cons_append]
        simp only [lex, hc, if_false]
        rw [← List.cons_append, ← hs, htk.1, htk.2, ih, unesc_cdata_eq]
        rfl

theorem print_length {ts : List Tok} (h : Lexed ts) : ts.length ≤ (ts.flatMap Tok.print).length := by
  induction ts with
  | nil => simp
  | cons t ts ih =>
    have hok : t.Ok ∧ Lexed ts := by
      cases ts with
      | nil => exact ⟨h.1, trivial⟩
      | cons u r => exact ⟨h.1, h.2.2⟩
    have h1 : 1 ≤ t.print.length := by
      cases t with
      | op q as b => simp [Tok.print]
      | cl q => simp [Tok.print]
      | tx s =>
        simp only [Tok.print]
        have := cdata_ne_nil hok.1.1
        exact List.length_pos_iff.mpr this
    have := ih hok.2
    simp only [List.flatMap_cons, List.length_append, List.length_cons]
    omega

theorem attrText_cr {as : List (Str × Str)} (h : ∀ p ∈ as, KeyOk p.1) : '\r' ∉ attrText as := by
  induction as with
  | nil => simp [attrText]
  | cons p as ih =>
    have h1 : '\r' ∉ p.1 := fun hc => ((h p (by simp)).2.2 _ hc).2 rfl
    have h2 : '\r' ∉ attrib p.2 := fun hc => (attrib_chars hc).2.2.2 rfl
    have h3 := ih fun q hq => h q (by simp [hq])
    simp [attrText, h1, h2, h3]

theorem print_cr {ts : List Tok} (h : Lexed ts) : '\r' ∉ ts.flatMap Tok.print := by
  induction ts with
  | nil => simp
  | cons t ts ih =>
    have hok : t.Ok ∧ Lexed ts := by
      cases ts with
      | nil => exact ⟨h.1, trivial⟩
      | cons u r => exact ⟨h.1, h.2.2⟩
    have h1 : '\r' ∉ t.print := by
      cases t with
      | op q as b =>
        have h2 : '\r' ∉ q := fun hc => (hok.1.2.2.1 _ hc).2 rfl
        have h3 := attrText_cr hok.1.2.2.2
        cases b <;> simp [Tok.print, h2, h3]
      | cl q =>
        have h2 : '\r' ∉ q := fun hc => (hok.1 _ hc).2 rfl
        simp [Tok.print, h2]
      | tx s => exact cdata_cr hok.1.2
    rw [List.flatMap_cons, List.mem_append]
    exact fun hc => hc.elim h1 (ih hok.2)

/-! ## The tokens of an element -/

/-- Character data, if any. -/
def leadToks (x : Option Str) : List Tok := if x.getD [] = [] then [] else [.tx (x.getD [])]

/-- The attributes as they are written. -/
def renamed (nm : Str → Str) (a : List (Str × Str)) : List (Str × Str) := a.map fun p => (nm p.1, p.2)

mutual
/-- The tokens of an element; `nm` are the names that are written. -/
def toks (nm : Str → Str) (ds : List (Str × Str)) : Xml → List Tok
  | .mk t a x ks =>
    if x.getD [] ≠ [] ∨ ks ≠ [] then
      .op (nm t) (ds ++ renamed nm a) false :: (leadToks x ++ (toksKids nm ks ++ [.cl (nm t)]))
    else [.op (nm t) (ds ++ renamed nm a) true]
termination_by structural e => e
/-- The tokens of the children. -/
def toksKids (nm : Str → Str) : List Xml → List Tok
  | [] => []
  | k :: ks => toks nm [] k ++ toksKids nm ks
termination_by structural ks => ks
end

theorem print_lead (x : Option Str) : (leadToks x).flatMap Tok.print = cdata (x.getD []) := by
  unfold leadToks
  split
  · rename_i h; rw [h]; rfl
  · simp [Tok.print]

mutual
theorem write_eq (qn ds : List (Str × Str)) : ∀ e : Xml, write qn ds e = (toks (nameOf qn) ds e).flatMap Tok.print
  | .mk t a x ks => by
    have ih := writeKids_eq qn ks
    by_cases h : x.getD [] ≠ [] ∨ ks ≠ []
    · rw [write, toks, if_pos h, if_pos h]
      simp only [List.flatMap_cons, List.flatMap_append, print_lead, ← ih, Tok.print, renamed, List.flatMap_nil,
        List.append_nil, List.append_assoc, List.cons_append, List.nil_append]
      rfl
    · rw [write, toks, if_neg h, if_neg h]
      simp [Tok.print, renamed]
termination_by structural e => e
theorem writeKids_eq (qn : List (Str × Str)) : ∀ ks : List Xml,
    writeKids qn ks = (toksKids (nameOf qn) ks).flatMap Tok.print
  | [] => rfl
  | k :: ks => by
    rw [writeKids, toksKids, List.flatMap_append, write_eq qn [] k, writeKids_eq qn ks]
termination_by structural ks => ks
end

theorem Lexed.tag {t : Tok} {r : List Tok} (ht : t.Ok) (h : t.isTag = true) (hr : Lexed r) : Lexed (t :: r) := by
  cases r with
  | nil => exact ⟨ht, h⟩
  | cons u r => exact ⟨ht, Or.inl h, hr⟩

/-- The list begins with a tag. -/
def Tagged (r : List Tok) : Prop := ∃ u r', r = u :: r' ∧ u.isTag = true

theorem toks_tagged (nm : Str → Str) (ds : List (Str × Str)) (e : Xml) (r : List Tok) : Tagged (toks nm ds e ++ r) := by
  cases e
  rw [toks]
  split <;> exact ⟨_, _, rfl, rfl⟩

theorem toksKids_tagged (nm : Str → Str) (ks : List Xml) {r : List Tok} (h : Tagged r) : Tagged (toksKids nm ks ++ r) := by
  cases ks with
  | nil => exact h
  | cons k ks =>
    simp only [toksKids, List.append_assoc]
    exact toks_tagged nm [] k _

theorem Lexed.lead {x : Option Str} (hc : '\r' ∉ x.getD []) {r : List Tok} (ht : Tagged r) (hr : Lexed r) : Lexed (leadToks x ++ r) := by
  unfold leadToks
  split
  · exact hr
  · rename_i hx
    obtain ⟨u, r', rfl, hu⟩ := ht
    exact ⟨⟨hx, hc⟩, Or.inr hu, hr⟩

/-- The names of an element can be read. -/
def NodeOk (nm : Str → Str) (e : Xml) : Prop := ∀ d, Sub e d →
  (∀ b, (Tok.op (nm d.tag) (renamed nm d.attrs) b).Ok) ∧ '\r' ∉ d.text.getD []

theorem NodeOk.kid {nm : Str → Str} {t : Str} {a : List (Str × Str)} {x : Option Str} {ks : List Xml}
    (h : NodeOk nm (.mk t a x ks)) {k : Xml} (hk : k ∈ ks) : NodeOk nm k := fun d hd => h d (.kid hk hd)

mutual
theorem lexed_toks (nm : Str → Str) (ds : List (Str × Str)) (hds : ∀ p ∈ ds, KeyOk p.1) : ∀ e : Xml, NodeOk nm e →
    ∀ r, Lexed r → Lexed (toks nm ds e ++ r)
  | .mk t a x ks, h, r, hr => by
    obtain ⟨hn, hcr⟩ := h _ (.refl _)
    simp only [Xml.tag, Xml.attrs, Xml.text] at hn hcr
    have hop : ∀ b, (Tok.op (nm t) (ds ++ renamed nm a) b).Ok := fun b => by
      obtain ⟨h1, h2, h3, h4⟩ := hn b
      exact ⟨h1, h2, h3, fun p hp => (List.mem_append.mp hp).elim (hds p) (h4 p)⟩
    have hcl : (Tok.cl (nm t)).Ok := fun c hc => ⟨((hn true).2.2.1 c hc).1.2, ((hn true).2.2.1 c hc).2⟩
    rw [toks]
    split
    · have h1 : Lexed (Tok.cl (nm t) :: r) := Lexed.tag hcl rfl hr
      have h2 := lexed_toksKids nm ks (fun k hk => h.kid hk) _ h1
      have h3 : Tagged (toksKids nm ks ++ Tok.cl (nm t) :: r) := toksKids_tagged nm ks ⟨_, _, rfl, rfl⟩
      have h5 := Lexed.tag (hop false) rfl (Lexed.lead (x := x) hcr h3 h2)
      simpa [List.append_assoc] using h5
    · exact Lexed.tag (hop true) rfl hr
termination_by structural e => e
theorem lexed_toksKids (nm : Str → Str) : ∀ ks : List Xml, (∀ k ∈ ks, NodeOk nm k) → ∀ r, Lexed r →
    Lexed (toksKids nm ks ++ r)
  | [], _, r, hr => hr
  | k :: ks, h, r, hr => by
    have h1 := lexed_toksKids nm ks (fun k' hk => h k' (List.mem_cons_of_mem _ hk)) r hr
    have h2 := lexed_toks nm [] (by intro p hp; cases hp) k (h k (List.mem_cons_self ..)) _ h1
    simpa [toksKids, List.append_assoc] using h2
termination_by structural ks => ks
end

/-! ## The element of the tokens -/

theorem build_lead (x : Option Str) (hx : ∀ s, x = some s → s ≠ []) (r : List Tok) (f : Frame) (fs : List Frame)
    (ht : f.text = none) (hk : f.kids = []) :
    build (leadToks x ++ r) (f :: fs) = build r ({ f with text := x } :: fs) := by
  cases x with
  | none => rw [show ({ f with text := none } : Frame) = f from by cases f; simp_all]; rfl
  | some s =>
    have := hx s rfl
    simp [leadToks, build, ht, hk, this]

/-- How elements are read: `K d e` says that `e` can be read in the default namespace `d`,
and `res d e` is the result. -/
def Reads (nm : Str → Str) (env : List (Str × Str)) (K : Str → Xml → Prop) (res : Str → Xml → Xml) : Prop :=
  ∀ d t a x ks, K d (.mk t a x ks) → ∃ d' t' a',
    frame d env (nm t) (renamed nm a) = some ⟨nm t, d', env, t', a', none, []⟩ ∧
    res d (.mk t a x ks) = .mk t' a' x (ks.map (res d')) ∧ (∀ k ∈ ks, K d' k) ∧ ∀ s, x = some s → s ≠ []

theorem getD_nil {x : Option Str} (hx : ∀ s, x = some s → s ≠ []) (h : x.getD [] = []) : x = none := by
  cases x with
  | none => rfl
  | some s => exact absurd h (hx s rfl)

mutual
theorem build_toks {nm : Str → Str} {env : List (Str × Str)} {K : Str → Xml → Prop} {res : Str → Xml → Xml}
    (hR : Reads nm env K res) : ∀ (e : Xml) r (f : Frame) fs, K f.d e → f.env = env →
    build (toks nm [] e ++ r) (f :: fs) = build r ({ f with kids := f.kids ++ [res f.d e] } :: fs)
  | .mk t a x ks, r, f, fs, hK, hf => by
    obtain ⟨d', t', a', h1, h2, h3, h4⟩ := hR _ _ _ _ _ hK
    subst hf
    rw [toks]
    split
    · simp only [List.cons_append, List.append_assoc, build, h1, List.nil_append, Bool.false_eq_true, if_false]
      rw [build_lead x h4 _ _ _ rfl rfl]
      dsimp only
      rw [build_toksKids hR ks _ ⟨nm t, d', f.env, t', a', x, []⟩ _ h3 rfl]
      simp only [build, if_true, List.nil_append, Frame.elem, h2]
    · rename_i hx
      have hx0 : x.getD [] = [] ∧ ks = [] := by
        constructor
        · exact Decidable.of_not_not fun h => hx (Or.inl h)
        · exact Classical.byContradiction fun h => hx (Or.inr h)
      obtain ⟨hx1, rfl⟩ := hx0
      have := getD_nil h4 hx1
      subst this
      simp only [List.cons_append, List.nil_append, build, h1, if_true, Frame.elem, h2, List.map_nil]
termination_by structural e => e
theorem build_toksKids {nm : Str → Str} {env : List (Str × Str)} {K : Str → Xml → Prop} {res : Str → Xml → Xml}
    (hR : Reads nm env K res) : ∀ (ks : List Xml) r (f : Frame) fs, (∀ k ∈ ks, K f.d k) → f.env = env →
    build (toksKids nm ks ++ r) (f :: fs) = build r ({ f with kids := f.kids ++ ks.map (res f.d) } :: fs)
  | [], r, f, fs, _, _ => by simp [toksKids]
  | k :: ks, r, f, fs, hK, hf => by
    simp only [toksKids, List.append_assoc]
    rw [build_toks hR k _ _ _ (hK k (List.mem_cons_self ..)) hf,
      build_toksKids hR ks _ { f with kids := f.kids ++ [res f.d k] } _ (fun k' hk => hK k' (List.mem_cons_of_mem _ hk)) hf]
    simp only [List.map_cons, List.append_assoc, List.cons_append, List.nil_append]
termination_by structural ks => ks
end

theorem build_root {nm : Str → Str} {env : List (Str × Str)} {K : Str → Xml → Prop} {res : Str → Xml → Xml}
    (hR : Reads nm env K res) {ds : List (Str × Str)} {t : Str} {a : List (Str × Str)} {x : Option Str} {ks : List Xml}
    {d' t' : Str} {a' : List (Str × Str)}
    (hf : frame [] [] (nm t) (ds ++ renamed nm a) = some ⟨nm t, d', env, t', a', none, []⟩)
    (hks : ∀ k ∈ ks, K d' k) (hx : ∀ s, x = some s → s ≠ []) :
    build (toks nm ds (.mk t a x ks)) [] = some (.mk t' a' x (ks.map (res d'))) := by
  rw [toks]
  split
  · simp only [build, hf, Bool.false_eq_true, if_false]
    rw [build_lead x hx _ _ _ rfl rfl]
    dsimp only
    rw [build_toksKids hR ks _ ⟨nm t, d', env, t', a', x, []⟩ _ hks rfl]
    simp only [build, and_self, if_true, List.nil_append, Frame.elem]
  · rename_i hx'
    have hx0 : x.getD [] = [] ∧ ks = [] := by
      constructor
      · exact Decidable.of_not_not fun h => hx' (Or.inl h)
      · exact Classical.byContradiction fun h => hx' (Or.inr h)
    obtain ⟨hx1, rfl⟩ := hx0
    have := getD_nil hx hx1
    subst this
    simp only [build, hf, if_true, Frame.elem, List.map_nil]

end Verif.Std
