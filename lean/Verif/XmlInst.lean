import Verif.Lemmas.XmlText
import Verif.ExtInst

/-!
# An XML library

A printer and a parser for a part of XML, to show that the laws of `Spec.Faithful` can be
met.  Elements in a namespace are printed with the prefix `n`, which they declare
themselves.  The parser knows start tags, end tags, character data, the four predefined
entities that are printed, `xmlns` and prefixes declared in the same start tag.
-/

set_option linter.unusedSectionVars false
set_option linter.unusedSimpArgs false

namespace Verif.Lib

open Spec

/-- A start tag, an end tag or character data. -/
inductive Tok where
  | op (q : Str) (as : List (Str × Str))
  | cl (q : Str)
  | tx (s : Str)
deriving DecidableEq

/-! ## Printing -/

/-- A character in character data or an attribute value. -/
def escChar (c : Char) : Str :=
  if c = '&' then s% "&amp;"
  else if c = '<' then s% "&lt;"
  else if c = '>' then s% "&gt;"
  else if c = '"' then s% "&quot;"
  else [c]

/-- Character data. -/
def esc (s : Str) : Str := s.flatMap escChar

/-- The XML attributes of a start tag. -/
def printAttrs : List (Str × Str) → Str
  | [] => []
  | p :: r => ' ' :: (p.1 ++ '=' :: '"' :: (esc p.2 ++ '"' :: printAttrs r))

/-- A token as text. -/
def Tok.print : Tok → Str
  | .op q as => '<' :: (q ++ (printAttrs as ++ ['>']))
  | .cl q => '<' :: '/' :: (q ++ ['>'])
  | .tx s => esc s

/-- The name in the tags of an element. -/
def qname (tag : Str) : Str := if nsPart tag = [] then tag else 'n' :: ':' :: localName tag

/-- The attributes in the start tag. -/
def qattrs (tag : Str) (attrs : List (Str × Str)) : List (Str × Str) :=
  if nsPart tag = [] then attrs else (s% "xmlns:n", (nsPart tag).tail.dropLast) :: attrs

/-- The character data before the first child. -/
def lead (b : Bool) (text : Option Str) (kids : List Xml) : Option Str :=
  match text with
  | some s => some s
  | none => if b && !kids.isEmpty then some ['\n'] else none

/-- The character data as tokens. -/
def leadToks : Option Str → List Tok
  | some s => [.tx s]
  | none => []

mutual
/-- The tokens of an element. -/
def toks (b : Bool) : Xml → List Tok
  | .mk tag attrs text kids => .op (qname tag) (qattrs tag attrs) ::
      (leadToks (lead b text kids) ++ (toksKids b kids ++ [.cl (qname tag)]))
termination_by structural e => e
/-- The tokens of the children. -/
def toksKids (b : Bool) : List Xml → List Tok
  | [] => []
  | k :: ks => toks b k ++ toksKids b ks
termination_by structural l => l
end

/-- `tostring`. -/
def print (b : Bool) (e : Xml) : Str := (toks b e).flatMap Tok.print

/-! ## Parsing -/

/-- Replace an entity at the front. -/
def unescStep (c : Char) (acc : Str) : Str :=
  if c = '&' then
    match acc with
    | 'a' :: 'm' :: 'p' :: ';' :: r => '&' :: r
    | 'l' :: 't' :: ';' :: r => '<' :: r
    | 'g' :: 't' :: ';' :: r => '>' :: r
    | 'q' :: 'u' :: 'o' :: 't' :: ';' :: r => '"' :: r
    | _ => '&' :: acc
  else c :: acc

/-- Replace the entities. -/
def unesc (s : Str) : Str := s.foldr unescStep []

/-- The attributes and the end of a start tag. -/
def lexAttrs : Nat → Str → Option (List (Str × Str) × Str)
  | 0, _ => none
  | n + 1, s => match s with
    | '>' :: r => some ([], r)
    | ' ' :: r => match r.dropWhile (fun c => c != '=') with
      | '=' :: '"' :: r2 => match r2.dropWhile (fun c => c != '"') with
        | '"' :: r3 => (lexAttrs n r3).map fun p =>
            ((r.takeWhile (fun c => c != '='), unesc (r2.takeWhile (fun c => c != '"'))) :: p.1, p.2)
        | _ => none
      | _ => none
    | _ => none

/-- The tokens of a text. -/
def lex : Nat → Str → Option (List Tok)
  | _, [] => some []
  | 0, _ => none
  | n + 1, c :: r =>
    if c = '<' then
      match r with
      | '/' :: r => match r.dropWhile (fun c => c != '>') with
        | '>' :: r2 => (lex n r2).map (Tok.cl (r.takeWhile (fun c => c != '>')) :: ·)
        | _ => none
      | r => match lexAttrs (r.length + 1) (r.dropWhile (fun c => c != ' ' && c != '>')) with
        | some (as, r2) => (lex n r2).map (Tok.op (r.takeWhile (fun c => c != ' ' && c != '>')) as :: ·)
        | none => none
    else (lex n ((c :: r).dropWhile (fun c => c != '<'))).map
      (Tok.tx (unesc ((c :: r).takeWhile (fun c => c != '<'))) :: ·)

/-- An element that is not complete: its name in the start tag, the default namespace
inside, and what is known of it. -/
structure Frame where
  q : Str
  d : Str
  tag : Str
  attrs : List (Str × Str)
  text : Option Str
  kids : List Xml

/-- A declaration of a namespace. -/
def isDecl (k : Str) : Bool := decide (k = s% "xmlns") || (s% "xmlns:").isPrefixOf k

/-- The element of a start tag, in the default namespace `d`. -/
def frame (d q : Str) (as : List (Str × Str)) : Option Frame :=
  if ':' ∈ q then
    match dget (s% "xmlns:" ++ q.takeWhile (fun c => c != ':')) as with
    | some u => some ⟨q, defaultNs d as, '{' :: u ++ '}' :: (q.dropWhile (fun c => c != ':')).tail,
        as.filter fun p => !isDecl p.1, none, []⟩
    | none => none
  else some ⟨q, defaultNs d as, defaultNs d as ++ q, as.filter fun p => !isDecl p.1, none, []⟩

/-- The complete element. -/
def Frame.elem (f : Frame) : Xml := .mk f.tag f.attrs f.text f.kids

/-- The element of a list of tokens; the list of frames are the open elements. -/
def build : List Tok → List Frame → Option Xml
  | [], _ => none
  | .op q as :: r, [] => match frame [] q as with
    | some f => build r [f]
    | none => none
  | .op q as :: r, g :: fs => match frame g.d q as with
    | some f => build r (f :: g :: fs)
    | none => none
  | _ :: _, [] => none
  | .tx s :: r, f :: fs =>
    build r ({ f with text := if f.text.isNone && f.kids.isEmpty then some s else f.text } :: fs)
  | .cl q :: r, [f] => if q = f.q ∧ r = [] then some f.elem else none
  | .cl q :: r, f :: g :: fs =>
    if q = f.q then build r ({ g with kids := g.kids ++ [f.elem] } :: fs) else none

/-- `fromstring`. -/
def read (s : Str) : Except FErr Xml :=
  match lex (s.length + 1) s with
  | none => .error (.xml 0)
  | some ts => match build ts [] with
    | none => .error (.xml 0)
    | some e => .ok e

/-- `parse`. -/
def readFile : File → Except FErr Xml
  | .zip _ => .error (.xml 0)
  | .plain b => match b.toByteArray.utf8Decode? with
    | some a => read a.toList
    | none => .error (.xml 0)

/-- The library; it has no schema validation. -/
def xmlLib : Etree where
  recovering := readFile
  plain := readFile
  pretty b e := .ok (print b e)
  tostring e := .ok (print false e)
  fromstring := read
  schema _ := .missing

/-! ## Reading what was printed -/

theorem unesc_esc (s r : Str) : (esc s ++ r).foldr unescStep [] = s ++ r.foldr unescStep [] := by
  induction s with
  | nil => rfl
  | cons c s ih =>
    simp only [esc, List.flatMap_cons, List.append_assoc] at ih ⊢
    rw [List.foldr_append, ih]
    unfold escChar
    by_cases h1 : c = '&'
    · subst h1; rfl
    · by_cases h2 : c = '<'
      · subst h2; rfl
      · by_cases h3 : c = '>'
        · subst h3; rfl
        · by_cases h4 : c = '"'
          · subst h4; rfl
          · simp [h1, h2, h3, h4, unescStep]

theorem unesc_eq (s : Str) : unesc (esc s) = s := by
  have := unesc_esc s []
  simpa [unesc] using this

theorem esc_chars {s : Str} {c : Char} (h : c ∈ esc s) : c ≠ '<' ∧ c ≠ '>' ∧ c ≠ '"' := by
  unfold esc at h
  obtain ⟨x, _, hx⟩ := List.mem_flatMap.mp h
  unfold escChar at hx
  split at hx
  · simp at hx; rcases hx with rfl | rfl | rfl | rfl | rfl <;> decide
  · split at hx
    · simp at hx; rcases hx with rfl | rfl | rfl | rfl <;> decide
    · split at hx
      · simp at hx; rcases hx with rfl | rfl | rfl | rfl <;> decide
      · split at hx
        · simp at hx; rcases hx with rfl | rfl | rfl | rfl | rfl | rfl <;> decide
        · rename_i h1 h2 h3 h4
          rw [List.mem_singleton] at hx
          subst hx
          exact ⟨h2, h3, h4⟩

theorem esc_ne_nil {s : Str} (h : s ≠ []) : esc s ≠ [] := by
  cases s with
  | nil => exact absurd rfl h
  | cons c s =>
    simp only [esc, List.flatMap_cons]
    intro h0
    have := (List.append_eq_nil_iff.mp h0).1
    unfold escChar at this
    split at this
    · cases this
    · split at this
      · cases this
      · split at this
        · cases this
        · split at this
          · cases this
          · cases this

theorem takeWhile_stop {p : Char → Bool} {s r : Str} {c : Char} (hs : ∀ x ∈ s, p x = true) (hc : p c = false) :
    (s ++ c :: r).takeWhile p = s ∧ (s ++ c :: r).dropWhile p = c :: r := by
  induction s with
  | nil => simp [hc]
  | cons x s ih =>
    have := ih fun y hy => hs y (by simp [hy])
    simp [hs x (by simp), this]

/-- The names of a token can be read. -/
def Tok.Ok : Tok → Prop
  | .op q as => q ≠ [] ∧ q.head? ≠ some '/' ∧ (∀ c ∈ q, c ≠ ' ' ∧ c ≠ '>') ∧ ∀ p ∈ as, ∀ c ∈ p.1, c ≠ '='
  | .cl q => ∀ c ∈ q, c ≠ '>'
  | .tx s => s ≠ []

/-- Not character data. -/
def Tok.isTag : Tok → Bool
  | .tx _ => false
  | _ => true

/-- The tokens can be read, and no two are character data in sequence. -/
def Lexed : List Tok → Prop
  | [] => True
  | [t] => t.Ok ∧ t.isTag = true
  | t :: u :: r => t.Ok ∧ (t.isTag = true ∨ u.isTag = true) ∧ Lexed (u :: r)

theorem lexAttrs_print (as : List (Str × Str)) (h : ∀ p ∈ as, ∀ c ∈ p.1, c ≠ '=') (r : Str) (n : Nat) (hn : as.length < n) :
    lexAttrs n (printAttrs as ++ '>' :: r) = some (as, r) := by
  induction as generalizing n with
  | nil =>
    obtain ⟨m, rfl⟩ : ∃ m, n = m + 1 := ⟨n - 1, by simp at hn; omega⟩
    rfl
  | cons p as ih =>
    obtain ⟨m, rfl⟩ : ∃ m, n = m + 1 := ⟨n - 1, by simp at hn; omega⟩
    have hk := takeWhile_stop (p := fun c => c != '=') (s := p.1) (c := '=')
      (r := '"' :: (esc p.2 ++ '"' :: (printAttrs as ++ '>' :: r)))
      (fun x hx => by simpa using h p (by simp) x hx) (by decide)
    have hv := takeWhile_stop (p := fun c => c != '"') (s := esc p.2) (c := '"')
      (r := printAttrs as ++ '>' :: r) (fun x hx => by simpa using (esc_chars hx).2.2) (by decide)
    have := ih (fun q hq => h q (by simp [hq])) m (by simp at hn; omega)
    simp only [printAttrs, List.cons_append, List.append_assoc, lexAttrs, hk.1, hk.2, hv.1, hv.2, this, unesc_eq,
      Option.map_some]

theorem printAttrs_length (as : List (Str × Str)) : as.length ≤ (printAttrs as).length := by
  induction as with
  | nil => simp [printAttrs]
  | cons p as ih => simp [printAttrs]; omega

theorem tag_print (t : Tok) (h : t.isTag = true) : ∃ r, t.print = '<' :: r := by
  cases t <;> simp [Tok.isTag, Tok.print] at h ⊢

theorem lex_print (ts : List Tok) (h : Lexed ts) (n : Nat) (hn : ts.length ≤ n) :
    lex n (ts.flatMap Tok.print) = some ts := by
  induction ts generalizing n with
  | nil => cases n <;> rfl
  | cons t ts ih =>
    obtain ⟨m, rfl⟩ : ∃ m, n = m + 1 := ⟨n - 1, by simp at hn; omega⟩
    have hok : t.Ok ∧ (t.isTag = true ∨ ∃ u r, ts = u :: r ∧ u.isTag = true) ∧ Lexed ts := by
      cases ts with
      | nil => exact ⟨h.1, Or.inl h.2, trivial⟩
      | cons u r => exact ⟨h.1, h.2.1.imp id fun hu => ⟨u, r, rfl, hu⟩, h.2.2⟩
    obtain ⟨hok, hnext, hrest⟩ := hok
    have ih := ih hrest m (by simp at hn; omega)
    rw [List.flatMap_cons]
    cases t with
    | op q as =>
      obtain ⟨hq0, hq1, hq, has⟩ := hok
      simp only [Tok.print, List.cons_append, List.append_assoc, lex, if_true]
      obtain ⟨c, q', rfl⟩ : ∃ c q', q = c :: q' := by
        cases q with
        | nil => exact absurd rfl hq0
        | cons c q' => exact ⟨c, q', rfl⟩
      have hstop : ∃ y z, printAttrs as ++ ('>' :: List.flatMap Tok.print ts) = y :: z ∧
          (y != ' ' && y != '>') = false := by
        cases as with
        | nil => exact ⟨_, _, rfl, by decide⟩
        | cons p as => exact ⟨_, _, rfl, by decide⟩
      obtain ⟨y, z, hyz, hy⟩ := hstop
      have htk := takeWhile_stop (p := fun c => c != ' ' && c != '>') (s := c :: q') (c := y) (r := z)
        (fun x hx => by have := hq x hx; simp [this.1, this.2]) hy
      have hlen : as.length < (c :: q' ++ (printAttrs as ++ ('>' :: List.flatMap Tok.print ts))).length + 1 := by
        have := printAttrs_length as
        simp only [List.length_append, List.length_cons]
        omega
      have hla := lexAttrs_print as has (List.flatMap Tok.print ts) _ hlen
      rw [List.nil_append]
      have hc : c ≠ '/' := by simpa using hq1
      split
      · rename_i r' heq
        simp only [List.cons_append, List.cons.injEq] at heq
        exact absurd heq.1 hc
      · rename_i r' _
        rw [hyz] at hla
        rw [hyz, htk.1, htk.2, hla]
        simp only [ih, Option.map_some]
    | cl q =>
      have htk := takeWhile_stop (p := fun c => c != '>') (s := q) (c := '>') (r := List.flatMap Tok.print ts)
        (fun x hx => by simpa using hok x hx) (by decide)
      simp only [Tok.print, List.cons_append, List.append_assoc, lex, if_true, List.nil_append, htk.1, htk.2, ih,
        Option.map_some]
    | tx s =>
      rcases hnext with hnext | ⟨u, r, rfl, hu⟩
      · cases hnext
      · obtain ⟨z, hz⟩ := tag_print u hu
        simp only [Tok.print]
        obtain ⟨c, s', hs⟩ : ∃ c s', esc s = c :: s' := by
          cases hs : esc s with
          | nil => exact absurd hs (esc_ne_nil hok)
          | cons c s' => exact ⟨c, s', rfl⟩
        have hc : c ≠ '<' := (esc_chars (s := s) (by rw [hs]; simp)).1
        have htk := takeWhile_stop (p := fun c => c != '<') (s := esc s) (c := '<')
          (r := z ++ List.flatMap Tok.print r)
          (fun x hx => by simpa using (esc_chars hx).1) (by decide)
        have hfl : List.flatMap Tok.print (u :: r) = '<' :: (z ++ List.flatMap Tok.print r) := by
          rw [List.flatMap_cons, hz]; rfl
        rw [hfl] at ih
        rw [hfl]
        conv => lhs; rw [hs, List.cons_append]
        simp only [lex, hc, if_false]
        rw [← List.cons_append, ← hs, htk.1, htk.2, ih, unesc_eq]
        rfl

/-! ## The tokens of an element that can be written -/

theorem nameChar_ok {c : Char} (h : nameChar c = true) :
    c ≠ ' ' ∧ c ≠ '>' ∧ c ≠ '/' ∧ c ≠ '=' ∧ c ≠ ':' ∧ c ≠ '}' := by
  refine ⟨?_, ?_, ?_, ?_, ?_, ?_⟩ <;> rintro rfl <;> exact absurd h (by decide)

theorem legalName_chars {l : Str} (h : legalName l = true) : ∀ c ∈ l, nameChar c = true := by
  cases l with
  | nil => cases h
  | cons c r =>
    simp only [legalName, Bool.and_eq_true, List.all_eq_true] at h
    intro x hx
    rcases List.mem_cons.mp hx with rfl | hx
    · simp [nameChar, h.1]
    · exact h.2 x hx

theorem legalName_ne {l : Str} (h : legalName l = true) : l ≠ [] := by rintro rfl; cases h

theorem node_split {e : Xml} (h : LegalNode e) :
    (nsPart e.tag = [] ∧ legalName e.tag = true) ∨
    ∃ u l, nsPart e.tag = '{' :: u ++ ['}'] ∧ localName e.tag = l ∧ legalName l = true ∧ e.tag = '{' :: u ++ '}' :: l := by
  obtain ⟨n, l, ht, hn, hl⟩ := h.tag
  have hb : '}' ∉ l := fun hm => (nameChar_ok (legalName_chars hl _ hm)).2.2.2.2.2 rfl
  rcases hn with rfl | ⟨u, rfl, _⟩
  · have := nsPart_tag (ns := []) (Or.inl rfl) hb
    left
    rw [ht]
    exact ⟨this.1, by simpa using hl⟩
  · have := nsPart_tag (ns := '{' :: u ++ ['}']) (Or.inr ⟨'{' :: u, rfl⟩) hb
    right
    refine ⟨u, l, ?_, ?_, hl, ?_⟩
    · rw [ht]; exact this.1
    · rw [ht]; exact this.2
    · rw [ht]; simp

theorem op_ok {e : Xml} (h : LegalNode e) : (Tok.op (qname e.tag) (qattrs e.tag e.attrs)).Ok := by
  have hk : ∀ p ∈ e.attrs, ∀ c ∈ p.1, c ≠ '=' := fun p hp c hc =>
    (nameChar_ok (legalName_chars (h.attrs p hp).1 c hc)).2.2.2.1
  rcases node_split h with ⟨h1, h2⟩ | ⟨u, l, h1, h2, h3, _⟩
  · simp only [qname, qattrs, h1, if_true]
    refine ⟨legalName_ne h2, ?_, fun c hc => ?_, hk⟩
    · intro hh
      have := legalName_chars h2 _ (List.mem_of_mem_head? (by rw [hh]; rfl))
      exact (nameChar_ok this).2.2.1 rfl
    · have := nameChar_ok (legalName_chars h2 c hc)
      exact ⟨this.1, this.2.1⟩
  · have hne : nsPart e.tag ≠ [] := by rw [h1]; simp
    simp only [qname, qattrs, hne, if_false]
    refine ⟨by simp, by simp, ?_, ?_⟩
    · intro c hc
      simp only [List.mem_cons] at hc
      rcases hc with rfl | rfl | hc
      · decide
      · decide
      · rw [h2] at hc
        have := nameChar_ok (legalName_chars h3 c hc)
        exact ⟨this.1, this.2.1⟩
    · intro p hp
      rcases List.mem_cons.mp hp with rfl | hp
      · exact (by decide : ∀ c ∈ s% "xmlns:n", c ≠ '=')
      · exact hk p hp

theorem Lexed.tag {t : Tok} {r : List Tok} (ht : t.Ok) (h : t.isTag = true) (hr : Lexed r) : Lexed (t :: r) := by
  cases r with
  | nil => exact ⟨ht, h⟩
  | cons u r => exact ⟨ht, Or.inl h, hr⟩

theorem cl_ok {e : Xml} (h : LegalNode e) : (Tok.cl (qname e.tag)).Ok := fun c hc => ((op_ok h).2.2.1 c hc).2

/-- The list begins with a tag. -/
def Tagged (r : List Tok) : Prop := ∃ u r', r = u :: r' ∧ u.isTag = true

theorem toks_tagged (b : Bool) (e : Xml) (r : List Tok) : Tagged (toks b e ++ r) := by
  cases e
  exact ⟨_, _, rfl, rfl⟩

theorem toksKids_tagged (b : Bool) (ks : List Xml) {r : List Tok} (h : Tagged r) : Tagged (toksKids b ks ++ r) := by
  cases ks with
  | nil => exact h
  | cons k ks =>
    simp only [toksKids, List.append_assoc]
    exact toks_tagged b k _

theorem lead_ne_nil {b : Bool} {e : Xml} (h : LegalNode e) {s : Str} (hs : lead b e.text e.kids = some s) : s ≠ [] := by
  unfold lead at hs
  split at hs
  · rename_i t ht
    cases hs
    exact (h.text _ ht).1
  · split at hs
    · cases hs; simp
    · cases hs

theorem Lexed.lead {o : Option Str} {r : List Tok} (ho : ∀ s, o = some s → s ≠ []) (ht : Tagged r) (hr : Lexed r) :
    Lexed (leadToks o ++ r) := by
  cases o with
  | none => exact hr
  | some s =>
    obtain ⟨u, r', rfl, hu⟩ := ht
    exact ⟨ho s rfl, Or.inr hu, hr⟩

mutual
theorem lexed_toks (b : Bool) : ∀ e : Xml, Writable e → ∀ r, Lexed r → Lexed (toks b e ++ r)
  | .mk t a x ks, h, r, hr => by
    have hn := h _ (.refl _)
    have h1 : Lexed (Tok.cl (qname t) :: r) := Lexed.tag (cl_ok hn) rfl hr
    have h2 := lexed_toksKids b ks (fun k hk d hd => h d (.kid hk hd)) _ h1
    have h3 : Tagged (toksKids b ks ++ Tok.cl (qname t) :: r) := toksKids_tagged b ks ⟨_, _, rfl, rfl⟩
    have h4 := Lexed.lead (o := lead b x ks) (fun s hs => lead_ne_nil hn hs) h3 h2
    have h5 := Lexed.tag (op_ok hn) rfl h4
    simpa [toks, List.append_assoc, Xml.tag, Xml.attrs] using h5
termination_by structural e => e
theorem lexed_toksKids (b : Bool) : ∀ ks : List Xml, (∀ k ∈ ks, Writable k) → ∀ r, Lexed r → Lexed (toksKids b ks ++ r)
  | [], _, r, hr => hr
  | k :: ks, h, r, hr => by
    have h1 := lexed_toksKids b ks (fun k' hk => h k' (List.mem_cons_of_mem _ hk)) r hr
    have h2 := lexed_toks b k (h k (List.mem_cons_self ..)) _ h1
    simpa [toksKids, List.append_assoc] using h2
termination_by structural ks => ks
end

/-! ## The element of the tokens -/

mutual
/-- The element with the white space that is printed. -/
def indent (b : Bool) : Xml → Xml
  | .mk t a x ks => .mk t a (lead b x ks) (indentKids b ks)
termination_by structural e => e
/-- The children. -/
def indentKids (b : Bool) : List Xml → List Xml
  | [] => []
  | k :: ks => indent b k :: indentKids b ks
termination_by structural ks => ks
end

theorem frame_eq {e : Xml} (h : LegalNode e) (d : Str) :
    frame d (qname e.tag) (qattrs e.tag e.attrs) =
      some ⟨qname e.tag, defaultNs d e.attrs, resolveTag (defaultNs d e.attrs) e.tag,
        e.attrs.filter fun p => decide (p.1 ≠ s% "xmlns"), none, []⟩ := by
  have hcol : ∀ {l : Str}, legalName l = true → ':' ∉ l := fun hl hm =>
    (nameChar_ok (legalName_chars hl _ hm)).2.2.2.2.1 rfl
  have hfil : (e.attrs.filter fun p => !isDecl p.1) = e.attrs.filter fun p => decide (p.1 ≠ s% "xmlns") := by
    refine List.filter_congr fun p hp => ?_
    have hp1 : (s% "xmlns:").isPrefixOf p.1 = false := by
      cases hpre : (s% "xmlns:").isPrefixOf p.1 with
      | false => rfl
      | true =>
        obtain ⟨z, hz⟩ := List.isPrefixOf_iff_prefix.mp hpre
        exact absurd (by rw [← hz]; simp) (hcol (h.attrs p hp).1)
    rw [isDecl, hp1, Bool.or_false, decide_not]
  rcases node_split h with ⟨h1, h2⟩ | ⟨u, l, h1, h2, h3, h4⟩
  · simp only [frame, qname, qattrs, resolveTag, h1, if_true, hcol h2, if_false, hfil]
  · have hne : nsPart e.tag ≠ [] := by rw [h1]; simp
    have hu : (nsPart e.tag).tail.dropLast = u := by rw [h1]; simp
    have hd : defaultNs d ((s% "xmlns:n", u) :: e.attrs) = defaultNs d e.attrs := by
      simp [defaultNs, dget]
    have hf : (((s% "xmlns:n", u) :: e.attrs).filter fun p => !isDecl p.1) =
        e.attrs.filter fun p => decide (p.1 ≠ s% "xmlns") := by
      rw [List.filter_cons]
      have : (!isDecl (s% "xmlns:n")) = false := by decide
      simp only [this, hfil]
      rfl
    have hg : dget (s% "xmlns:" ++ ('n' :: ':' :: l).takeWhile (fun c => c != ':'))
        ((s% "xmlns:n", u) :: e.attrs) = some u := by
      simp [dget]
    have hm : ':' ∈ 'n' :: ':' :: l := by simp
    simp only [frame, qname, qattrs, resolveTag, hne, if_false, hu, h2, hm, if_true, hg, hd, hf]
    congr 2
    rw [h4]
    simp

theorem build_lead (o : Option Str) (r : List Tok) (f : Frame) (fs : List Frame) (ht : f.text = none) (hk : f.kids = []) :
    build (leadToks o ++ r) (f :: fs) = build r ({ f with text := o } :: fs) := by
  cases o with
  | none => rw [show ({ f with text := none } : Frame) = f from by cases f; simp_all]; rfl
  | some s => simp [leadToks, build, ht, hk]

mutual
theorem build_toks (b : Bool) : ∀ e : Xml, Writable e → ∀ r (f : Frame) fs,
    build (toks b e ++ r) (f :: fs) = build r ({ f with kids := f.kids ++ [resolve f.d (indent b e)] } :: fs)
  | .mk t a x ks, h, r, f, fs => by
    have hn := h _ (.refl _)
    have hf := frame_eq hn f.d
    simp only [Xml.tag, Xml.attrs] at hf
    simp only [toks, List.cons_append, List.append_assoc, build, hf, List.nil_append]
    rw [build_lead _ _ _ _ rfl rfl, build_toksKids b ks (fun k hk d hd => h d (.kid hk hd))]
    simp only [build, if_true, List.nil_append, indent, resolve, Frame.elem]
termination_by structural e => e
theorem build_toksKids (b : Bool) : ∀ ks : List Xml, (∀ k ∈ ks, Writable k) → ∀ r (f : Frame) fs,
    build (toksKids b ks ++ r) (f :: fs) =
      build r ({ f with kids := f.kids ++ resolveKids f.d (indentKids b ks) } :: fs)
  | [], _, r, f, fs => by simp [toksKids, indentKids, resolveKids]
  | k :: ks, h, r, f, fs => by
    simp only [toksKids, List.append_assoc]
    rw [build_toks b k (h k (List.mem_cons_self ..)),
      build_toksKids b ks (fun k' hk => h k' (List.mem_cons_of_mem _ hk))]
    simp only [indentKids, resolveKids, List.append_assoc, List.cons_append, List.nil_append]
termination_by structural ks => ks
end

theorem build_root (b : Bool) (e : Xml) (h : Writable e) : build (toks b e) [] = some (resolve [] (indent b e)) := by
  cases e with
  | mk t a x ks =>
    have hn := h _ (.refl _)
    have hf := frame_eq hn []
    simp only [Xml.tag, Xml.attrs] at hf
    simp only [toks, build, hf]
    rw [build_lead _ _ _ _ rfl rfl, build_toksKids b ks (fun k hk d hd => h d (.kid hk hd))]
    simp only [build, true_and, if_true, List.nil_append, indent, resolve, Frame.elem]

mutual
theorem indented_resolve (b : Bool) (d : Str) : ∀ e : Xml, Indented (resolve d e) (resolve d (indent b e))
  | .mk t a x ks => by
    have hk := indented_resolveKids b (defaultNs d a) ks
    simp only [indent, resolve]
    refine .mk ?_ hk.1 hk.2
    unfold lead
    split
    · exact Or.inl rfl
    · split
      · rename_i hb
        right
        refine ⟨?_, rfl, by decide⟩
        cases ks with
        | nil => simp at hb
        | cons _ _ => simp [resolveKids]
      · exact Or.inl rfl
termination_by structural e => e
theorem indented_resolveKids (b : Bool) (d : Str) : ∀ ks : List Xml,
    (resolveKids d ks).length = (resolveKids d (indentKids b ks)).length ∧
    ∀ p ∈ (resolveKids d ks).zip (resolveKids d (indentKids b ks)), Indented p.1 p.2
  | [] => ⟨rfl, by intro p hp; cases hp⟩
  | k :: ks => by
    have h1 := indented_resolve b d k
    have h2 := indented_resolveKids b d ks
    simp only [indentKids, resolveKids, List.length_cons, List.zip_cons_cons]
    refine ⟨by rw [h2.1], fun p hp => ?_⟩
    rcases List.mem_cons.mp hp with rfl | hp
    · exact h1
    · exact h2.2 p hp
termination_by structural ks => ks
end

theorem print_length {ts : List Tok} (h : Lexed ts) : ts.length ≤ (ts.flatMap Tok.print).length := by
  induction ts with
  | nil => simp
  | cons t ts ih =>
    have hok : t.Ok ∧ Lexed ts := by
      cases ts with
      | nil => exact ⟨h.1, trivial⟩
      | cons u r => exact ⟨h.1, h.2.2⟩
    have h1 : 1 ≤ t.print.length := by
      cases t with
      | op q as => simp [Tok.print]
      | cl q => simp [Tok.print]
      | tx s =>
        simp only [Tok.print]
        have := esc_ne_nil hok.1
        exact List.length_pos_iff.mpr this
    have := ih hok.2
    simp only [List.flatMap_cons, List.length_append, List.length_cons]
    omega

theorem read_print (b : Bool) (e : Xml) (h : Writable e) : read (print b e) = .ok (resolve [] (indent b e)) := by
  have hl : Lexed (toks b e) := by simpa using lexed_toks b e h [] trivial
  have := lex_print (toks b e) hl ((print b e).length + 1) (by have := print_length hl; unfold print; omega)
  unfold read
  rw [print] at *
  rw [this]
  simp only [build_root b e h]

theorem readFile_print {s : Str} {r : Except FErr Xml} (h : read s = r) : readFile (.plain (utf8 s)) = r := by
  have : (utf8 s).toByteArray = s.utf8Encode := rfl
  simp only [readFile]
  rw [this, List.utf8Decode?_utf8Encode]
  exact h

/-- The library reads what it writes. -/
theorem xmlLib_faithful : Faithful xmlLib where
  prints b e _ := ⟨print b e, Or.inl rfl⟩
  reads b e t h ht := by
    have ht : t = print b e := by
      rcases ht with ht | ⟨ht, _⟩
      · cases ht; rfl
      · cases ht
    subst ht
    exact ⟨_, indented_resolve b [] e, read_print b e h, Or.inl (readFile_print (read_print b e h))⟩

end Verif.Lib

namespace Verif.Fix

open Spec

theorem ascii_sgn_dec (b : Bool) (p m : Nat) : Ascii (sgn b (dec p m)) := by
  have h : Ascii (dec p m) := by
    intro c hc
    rcases dec_chars c hc with rfl | ⟨d, hd⟩
    · decide
    · have := digitVal_range hd
      omega
  cases b with
  | false => exact h
  | true =>
    intro c hc
    rcases List.mem_cons.mp hc with rfl | hc
    · decide
    · exact h c hc

end Verif.Fix
