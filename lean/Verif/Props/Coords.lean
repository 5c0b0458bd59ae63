import Verif.Spec.Coords
import Verif.Lemmas.Coords
import Verif.ExtInst
import Verif.Classes

/-!
# C24, C25, C26: `<coordinates>`
-/

set_option linter.unusedSectionVars false
set_option linter.unusedSimpArgs false

namespace Verif

open Spec

variable {C F : Type} [DecidableEq C] [PyExt F]

/-! ## C24 Round trip -/

/-- Writing a list of coordinates (each with at least one component) as text and
reading the text gives the same list, in both modes. -/
theorem C24_roundtrip [LawfulExt F] (l : List (Pt F)) (hne : l ≠ []) (hc : ∀ c ∈ l, c ≠ [])
    (strict : Bool) (el el' : Xml)
    (h : setCoordinates (C := C) none (.coords l) el = .ok el') :
    getCoordinates el' strict = .ok (some l) := by
  cases l with
  | nil => exact absurd rfl hne
  | cons c l =>
    simp only [setCoordinates] at h
    split at h
    · simp at h; subst h
      simp only [getCoordinates, Xml.setText, Xml.text]
      rw [tuplesOf_coordsText none (c :: l) hc]
      have : ((c :: l).map fun x => x.map (rounded none)) = c :: l := by
        have : ∀ x : Pt F, x.map (rounded none) = x := by
          intro x; induction x with
          | nil => rfl
          | cons a x ih => simp only [List.map_cons, ih]; rfl
        simp only [this, List.map_id']
      rw [this]
    · cases h

/-- With a precision every number is replaced by the number its fixed-point text
denotes; the shape of the list is the same. -/
theorem C24_precision [LawfulExt F] (p : Option Nat) (l : List (Pt F)) (hne : l ≠ [])
    (hc : ∀ c ∈ l, c ≠ []) (strict : Bool) (el el' : Xml)
    (h : setCoordinates (C := C) p (.coords l) el = .ok el') :
    getCoordinates el' strict = .ok (some (l.map (·.map (rounded p)))) := by
  cases l with
  | nil => exact absurd rfl hne
  | cons c l =>
    simp only [setCoordinates] at h
    split at h
    · simp at h; subst h
      simp only [getCoordinates, Xml.setText, Xml.text]
      rw [tuplesOf_coordsText p (c :: l) hc]
    · cases h

/-- Two points, one with altitude and one NaN component. -/
example : (match setCoordinates (C := Cls) none
      (.coords [[⟨some 1500000⟩, ⟨some (-20)⟩], [⟨some 3⟩, ⟨none⟩, ⟨some 7⟩]] : Val Cls Fix) (.new []) with
    | .ok e => (match getCoordinates (F := Fix) e true with | .ok l => l | _ => none)
    | _ => none) = some [[⟨some 1500000⟩, ⟨some (-20)⟩], [⟨some 3⟩, ⟨none⟩, ⟨some 7⟩]] := by
  decide

/-! ## C25 Spacing -/

theorem blanks_word_append {b p r : Str} (hb : ∀ c ∈ b, c = ' ') (hp : p ≠ [])
    (hpw : ∀ c ∈ p, isSpace c = false ∧ c ≠ ',') :
    squeeze true (b ++ (p ++ r)) = p ++ squeeze false r := by
  have hp' : squeeze true (p ++ r) = p ++ squeeze false r := by
    apply squeeze_word_append _ _ _ hp
    · exact blank_not_mem (fun c hc => (hpw c hc).1)
    · intro t ht
      exact (hpw ',' (by simp [ht])).2 rfl
  induction b with
  | nil => exact hp'
  | cons x xs ih =>
    have hx : x = ' ' := hb x (by simp)
    subst hx
    show squeeze true (' ' :: (xs ++ (p ++ r))) = _
    have : squeeze true (' ' :: (xs ++ (p ++ r))) = squeeze true (xs ++ (p ++ r)) := rfl
    rw [this]
    exact ih (fun c hc => hb c (by simp [hc]))

theorem squeeze_restText {rs : List (Str × Str)} (r : Str)
    (h : ∀ q ∈ rs, (∀ c ∈ q.1, c = ' ') ∧ q.2 ≠ [] ∧ ∀ c ∈ q.2, isSpace c = false ∧ c ≠ ',') :
    squeeze false (restText rs ++ r) = (rs.map fun q => [','] ++ q.2).flatten ++ squeeze false r := by
  induction rs with
  | nil => rfl
  | cons q rs ih =>
    obtain ⟨b, p⟩ := q
    obtain ⟨h1, h2, h3⟩ := h (b, p) (by simp)
    show squeeze false ([','] ++ b ++ p ++ restText rs ++ r) = _
    have e1 : [','] ++ b ++ p ++ restText rs ++ r = ',' :: (b ++ (p ++ (restText rs ++ r))) := by simp
    rw [e1]
    have e2 : squeeze false (',' :: (b ++ (p ++ (restText rs ++ r)))) =
        ',' :: squeeze true (b ++ (p ++ (restText rs ++ r))) := rfl
    rw [e2, blanks_word_append h1 h2 h3, ih (fun q hq => h q (by simp [hq]))]
    simp

theorem compact_eq (first : Str) (rest : List (Str × Str)) :
    first ++ (rest.map fun q => [','] ++ q.2).flatten = join [','] (first :: rest.map Prod.snd) := by
  induction rest generalizing first with
  | nil => simp [join]
  | cons q rest ih =>
    show first ++ (([','] ++ q.2) ++ (rest.map fun q => [','] ++ q.2).flatten) =
      first ++ [','] ++ join [','] (q.2 :: rest.map Prod.snd)
    rw [← ih q.2]; simp

theorem squeeze_tuple {t : TupleText} (ht : t.Ok) (r : Str) :
    squeeze false (t.text ++ r) = join [','] t.parts ++ squeeze false r := by
  have hf := ht.1 t.first (by simp [TupleText.parts])
  unfold TupleText.text
  rw [List.append_assoc, squeeze_word_append (blank_not_mem (fun c hc => (hf.2 c hc).1))
    (fun u hu => (hf.2 ',' (by simp [hu])).2 rfl) _ hf.1]
  rw [squeeze_restText]
  · rw [← List.append_assoc, compact_eq]; rfl
  · intro q hq
    refine ⟨ht.2 q hq, ?_⟩
    exact ht.1 q.2 (by simp only [TupleText.parts, List.mem_cons, List.mem_map]; exact Or.inr ⟨q, hq, rfl⟩)

theorem squeeze_blank {a : Str} (ha : Blank a) (r : Str) :
    squeeze false (a ++ r) = a ++ squeeze false r := by
  induction a with
  | nil => rfl
  | cons x xs ih =>
    have hx := ha x (by simp)
    have hc : (x == ',') = false := by
      simp only [beq_eq_false_iff_ne]; rintro rfl
      exact absurd hx (by decide)
    show squeeze false (x :: (xs ++ r)) = x :: (xs ++ squeeze false r)
    have : squeeze false (x :: (xs ++ r)) = x :: squeeze (x == ',') (xs ++ r) := rfl
    rw [this, hc, ih (fun c hc => ha c (by simp [hc]))]

theorem tuple_word {t : TupleText} (ht : t.Ok) : Word (join [','] t.parts) :=
  join_comma_word (by simp [TupleText.parts]) (fun s hs => ht.1 s hs)

theorem splitWs_body {init : List (TupleText × Str)} {last : TupleText}
    (hi : ∀ p ∈ init, p.1.Ok ∧ Blank p.2 ∧ p.2 ≠ []) (hl : last.Ok) :
    splitWs (squeeze false (bodyText init last)) =
      (init.map fun p => join [','] p.1.parts) ++ [join [','] last.parts] := by
  induction init with
  | nil =>
    have := squeeze_tuple hl []
    simp only [List.append_nil] at this
    show splitWs (squeeze false last.text) = _
    rw [this]
    have : squeeze false [] = [] := rfl
    rw [this, List.append_nil, splitWs_word (tuple_word hl)]; rfl
  | cons p init ih =>
    obtain ⟨t, sep⟩ := p
    obtain ⟨h1, h2, h3⟩ := hi (t, sep) (by simp)
    show splitWs (squeeze false (t.text ++ sep ++ bodyText init last)) = _
    rw [List.append_assoc, squeeze_tuple h1, squeeze_blank h2, ← List.append_assoc,
      splitWs_word_space (tuple_word h1) h2 h3, ih (fun p hp => hi p (by simp [hp]))]
    rfl

theorem trimmed_body {init : List (TupleText × Str)} {last : TupleText}
    (hi : ∀ p ∈ init, p.1.Ok ∧ Blank p.2 ∧ p.2 ≠ []) (hl : last.Ok) :
    Trimmed (bodyText init last) := by
  have hend : ∀ (f : Str) (rs : List (Str × Str)), f ≠ [] → (∀ c ∈ f, isSpace c = false) →
      (∀ q ∈ rs, q.2 ≠ [] ∧ ∀ c ∈ q.2, isSpace c = false) →
      ∀ c r, f ++ restText rs = r ++ [c] → isSpace c = false := by
    intro f rs
    induction rs generalizing f with
    | nil =>
      intro hf hs _ c r h
      simp only [restText, List.append_nil] at h
      exact hs c (by simp [h])
    | cons q rs ih =>
      intro hf hs hq c r h
      obtain ⟨b, p⟩ := q
      obtain ⟨hp, hps⟩ := hq (b, p) (by simp)
      have e : f ++ restText ((b, p) :: rs) = (f ++ [','] ++ b) ++ (p ++ restText rs) := by
        simp [restText]
      rw [e] at h
      obtain ⟨u, x, hu⟩ : ∃ u x, p ++ restText rs = u ++ [x] := by
        rcases List.eq_nil_or_concat (p ++ restText rs) with h0 | ⟨u, x, h0⟩
        · simp at h0; exact absurd h0.1 hp
        · exact ⟨u, x, by simpa using h0⟩
      have hx : x = c := by
        rw [hu, ← List.append_assoc] at h
        have := (List.append_inj' h rfl).2; simpa using this
      subst hx
      exact ih p hp hps (fun q hq' => hq q (by simp [hq'])) x u hu
  have htup : ∀ t : TupleText, t.Ok → (∃ c r, t.text = c :: r ∧ isSpace c = false) ∧
      (∀ c r, t.text = r ++ [c] → isSpace c = false) := by
    intro t ht
    have hf := ht.1 t.first (by simp [TupleText.parts])
    constructor
    · cases h0 : t.first with
      | nil => exact absurd h0 hf.1
      | cons c r => exact ⟨c, r ++ restText t.rest, by simp [TupleText.text, h0], (hf.2 c (by simp [h0])).1⟩
    · refine hend t.first t.rest hf.1 (fun c hc => (hf.2 c hc).1) ?_
      intro q hq
      have := ht.1 q.2 (by
        simp only [TupleText.parts, List.mem_cons, List.mem_map]; exact Or.inr ⟨q, hq, rfl⟩)
      exact ⟨this.1, fun c hc => (this.2 c hc).1⟩
  constructor
  · intro c r h
    cases init with
    | nil =>
      obtain ⟨⟨c', r', h1, h2⟩, _⟩ := htup last hl
      simp only [bodyText] at h
      rw [h1] at h; simp at h; rw [← h.1]; exact h2
    | cons p init =>
      obtain ⟨t, sep⟩ := p
      obtain ⟨⟨c', r', h1, h2⟩, _⟩ := htup t (hi (t, sep) (by simp)).1
      simp only [bodyText] at h
      rw [h1] at h; simp at h; rw [← h.1]; exact h2
  · induction init with
    | nil => exact (htup last hl).2
    | cons p init ih =>
      intro c r h
      obtain ⟨t, sep⟩ := p
      simp only [bodyText] at h
      have hne : bodyText init last ≠ [] := by
        cases init with
        | nil =>
          obtain ⟨⟨c', r', h1, _⟩, _⟩ := htup last hl
          simp [bodyText, h1]
        | cons p' init =>
          obtain ⟨t', sep'⟩ := p'
          obtain ⟨⟨c', r', h1, _⟩, _⟩ := htup t' (hi (t', sep') (by simp)).1
          simp [bodyText, h1]
      obtain ⟨u, x, hu⟩ : ∃ u x, bodyText init last = u ++ [x] := by
        rcases List.eq_nil_or_concat (bodyText init last) with h0 | ⟨u, x, h0⟩
        · exact absurd h0 hne
        · exact ⟨u, x, by simpa using h0⟩
      have hx : x = c := by
        rw [hu, ← List.append_assoc] at h
        have := (List.append_inj' h rfl).2; simpa using this
      subst hx
      exact ih (fun p hp => hi p (by simp [hp])) x u hu

/-- The words read from a spaced text do not depend on the spacing. -/
theorem latlons_spaced (s : Spaced) (h : s.Ok) : latlons s.text = s.tuples.map (join [',']) := by
  obtain ⟨h1, h2, h3, h4⟩ := h
  unfold latlons Spaced.text
  rw [strip_surround h1 h2 (trimmed_body h4 h3), splitWs_body h4 h3]
  simp [Spaced.tuples]

/-- What is read depends only on the tuples, not on the spacing: two texts with
the same tuples give the same result (the same list or the same error), in both
modes. -/
theorem C25_spacing (s t : Spaced) (hs : s.Ok) (ht : t.Ok) (htup : s.tuples = t.tuples)
    (strict : Bool) (tag tag' : Str) (a a' : List (Str × Str)) (k k' : List Xml) :
    getCoordinates (F := F) (.mk tag a (some s.text) k) strict =
      getCoordinates (.mk tag' a' (some t.text) k') strict := by
  simp only [getCoordinates, Xml.text, latlons_spaced s hs, latlons_spaced t ht, htup]

/-- A text read successfully yields one coordinate per whitespace separated
tuple, with one component per comma separated number. -/
theorem C25_count (s : Spaced) (hs : s.Ok) (strict : Bool) (tag : Str) (a : List (Str × Str))
    (k : List Xml) (l : List (Pt F))
    (h : getCoordinates (.mk tag a (some s.text) k) strict = .ok (some l)) :
    l.map List.length = s.tuples.map List.length := by
  simp only [getCoordinates, Xml.text, latlons_spaced s hs] at h
  have hparts : ∀ ps ∈ s.tuples, ps ≠ [] ∧ ∀ p ∈ ps, ',' ∉ p := by
    intro ps hps
    obtain ⟨h1, h2, h3, h4⟩ := hs
    have key : ∀ t : TupleText, t.Ok → t.parts ≠ [] ∧ ∀ p ∈ t.parts, ',' ∉ p := fun t ht =>
      ⟨by simp [TupleText.parts], fun p hp hc => ((ht.1 p hp).2 ',' hc).2 rfl⟩
    simp only [Spaced.tuples, List.mem_append, List.mem_map, List.mem_singleton] at hps
    rcases hps with ⟨q, hq, rfl⟩ | rfl
    · exact key _ (h4 q hq).1
    · exact key _ h3
  have htup : tuplesOf (s.tuples.map (join [','])) = some l := by
    cases h0 : tuplesOf (F := F) (s.tuples.map (join [','])) with
    | none => rw [h0] at h; cases strict <;> simp [handleError] at h
    | some cs => rw [h0] at h; simp at h; rw [h]
  revert htup hparts
  generalize s.tuples = ts
  clear h hs
  induction ts generalizing l with
  | nil => intro _ h; simp [tuplesOf] at h; subst h; rfl
  | cons t ts ih =>
    intro hp h
    simp only [List.map_cons, tuplesOf] at h
    obtain ⟨hp1, hp2⟩ := hp t (by simp)
    rw [splitOn_join hp1 hp2] at h
    split at h
    · rename_i c cs hc hcs
      simp at h; subst h
      simp only [List.map_cons]
      rw [floatsOf_length hc, ih cs (fun ps hps => hp ps (by simp [hps])) hcs]
    · cases h

/-- Non-vacuity: `"\n 1, 2\t3,4 "` and `"1,2 3,  4"` are spacings of the same
tuples. -/
example :
    let s : Spaced := ⟨s% "\n ", [(⟨s% "1", [(s% " ", s% "2")]⟩, s% "\t")], ⟨s% "3", [([], s% "4")]⟩, s% " "⟩
    let t : Spaced := ⟨[], [(⟨s% "1", [([], s% "2")]⟩, s% " ")], ⟨s% "3", [(s% "  ", s% "4")]⟩, []⟩
    s.text = s% "\n 1, 2\t3,4 " ∧ t.text = s% "1,2 3,  4" ∧ s.tuples = t.tuples ∧
    (match getCoordinates (F := Fix) (.mk [] [] (some s.text) []) true with | .ok l => l | _ => none) =
      some [[⟨some 1000000⟩, ⟨some 2000000⟩], [⟨some 3000000⟩, ⟨some 4000000⟩]] := by decide

/-- A newline after a comma is not a blank: it splits the tuple (so the
restriction to blanks in `TupleText.Ok` is necessary). -/
example : latlons (s% "1,\n2") = [s% "1,", s% "2"] := by decide

/-! ## C26 Dimension check -/

/-- Writing a `Coordinates` object raises `KMLWriteError` iff the first tuple does
not have 2 or 3 components; otherwise it succeeds, whatever the later tuples are. -/
theorem C26_write (o : Opts) (ns : Str) (nss : NsMap) (l : List (Pt F)) :
    let r := ser fastkml o (.obj .Coordinates ns nss [(s% "coords", .coords l)])
    (r = .error .writeError ↔ ∃ c cs, l = c :: cs ∧ c.length ≠ 2 ∧ c.length ≠ 3) ∧
    (r ≠ .error .writeError → ∃ e, r = .ok e ∧
      e.text = if l = [] then none else some (coordsText o.precision l)) := by
  have hitems : fastkml.itemsOf .Coordinates = items_Coordinates := by decide +kernel
  have hr : ser fastkml o (.obj .Coordinates ns nss [(s% "coords", .coords l)]) =
      setCoordinates (C := Cls) o.precision (.coords l) (Xml.new (ns ++ s% "coordinates")) := by
    simp only [ser, serStep, serAttrs, hitems]
    rw [if_neg (by decide)]
    simp only [items_Coordinates, setAll, setElement, getattr]
    rw [if_neg (by decide), if_neg (by decide), if_neg (by decide)]
    simp only [dget, if_true, Option.getD_some]
    cases h : setCoordinates (C := Cls) o.precision (.coords l : Val Cls F)
      (Xml.new (ns ++ (fastkml.info .Coordinates).tag)) with
    | error e => exact h.symm
    | ok e => exact h.symm
  rw [hr]
  cases l with
  | nil => simp [setCoordinates, Xml.new, Xml.text]
  | cons c cs =>
    simp only [setCoordinates]
    by_cases h : c.length = 2 ∨ c.length = 3
    · simp only [h, if_true]
      refine ⟨?_, fun _ => ⟨_, rfl, ?_⟩⟩
      · constructor
        · intro h'; cases h'
        · rintro ⟨c', cs', he, h1, h2⟩
          simp at he; obtain ⟨rfl, rfl⟩ := he
          omega
      · simp [Xml.setText, Xml.text]
    · simp only [h, if_false]
      refine ⟨⟨fun _ => ⟨c, cs, rfl, by omega, by omega⟩, fun _ => trivial⟩, fun h' => absurd rfl h'⟩

/-- A later tuple with one component is written. -/
example : (match ser (F := Fix) fastkml ⟨none, .normal⟩ (.obj .Coordinates [] []
      [(s% "coords", .coords [[⟨some 0⟩, ⟨some 0⟩], [⟨some 0⟩]])]) with
    | .ok e => e.text | _ => none) = some (s% "0.000000,0.000000 0.000000") := by decide +kernel

end Verif
