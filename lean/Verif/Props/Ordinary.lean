import Verif.Spec.Ordinary
import Verif.Props.Moments
import Verif.Props.Resaved
import Verif.Props.Lossless
import Verif.Props.Coords

set_option linter.unusedSectionVars false
set_option linter.unusedSimpArgs false

/-!
# C77: ordinary documents are opened, saved as valid documents and opened again
-/

namespace Verif

open Spec

variable {F : Type} [PyExt F]

/-! ## Times -/

theorem twoDigits_noSpace {s : Str} {n : Nat} (h : TwoDigits s n) : ∀ c ∈ s, isSpace c = false := by
  obtain ⟨-, rfl⟩ := twoDigits_iff.mp h
  intro c hc
  obtain ⟨d, hd⟩ := pad_digits 2 n c hc
  exact digit_noSpace hd

theorem fourDigits_noSpace {s : Str} {n : Nat} (h : FourDigits s n) : ∀ c ∈ s, isSpace c = false := by
  obtain ⟨-, rfl⟩ := fourDigits_iff.mp h
  intro c hc
  obtain ⟨d, hd⟩ := pad_digits 4 n c hc
  exact digit_noSpace hd

theorem noSpace_append {s t : Str} (hs : ∀ c ∈ s, isSpace c = false) (ht : ∀ c ∈ t, isSpace c = false) :
    ∀ c ∈ s ++ t, isSpace c = false := fun c hc => (List.mem_append.mp hc).elim (hs c) (ht c)

theorem noSpace_cons {x : Char} {t : Str} (hx : isSpace x = false) (ht : ∀ c ∈ t, isSpace c = false) :
    ∀ c ∈ x :: t, isSpace c = false := fun c hc => (List.mem_cons.mp hc).elim (fun h => h ▸ hx) (ht c)

theorem isoDate_noSpace {d : Date} {s : Str} (h : IsoDate d s) : ∀ c ∈ s, isSpace c = false := by
  obtain ⟨Y, M, D, rfl, hY, hM, hD⟩ := h
  exact noSpace_append (noSpace_append (fourDigits_noSpace hY) (noSpace_cons (by decide) (twoDigits_noSpace hM)))
    (noSpace_cons (by decide) (twoDigits_noSpace hD))

/-- The text of a time has no white space. -/
theorem timeText_noSpace {s : Str} {k : KmlDateTime} (h : TimeText s k) : ∀ c ∈ s, isSpace c = false := by
  obtain ⟨dt, res⟩ := k
  cases res <;> cases dt <;> simp only [TimeText] at h <;> try exact h.elim
  case year.date d => exact fourDigits_noSpace h.1
  case yearMonth.date d =>
    obtain ⟨⟨Y, M, rfl, hY, hM⟩, -⟩ := h
    exact noSpace_append (fourDigits_noSpace hY) (noSpace_cons (by decide) (twoDigits_noSpace hM))
  case date.date d => exact isoDate_noSpace h.1
  case datetime.dt d t =>
    obtain ⟨day, hh, mi, sec, frac, zone, rfl, hday, hv, h1, -, h2, -, h3, -, hf, ho⟩ := h
    have hfrac : ∀ c ∈ frac, isSpace c = false := by
      rcases hf with ⟨rfl, -⟩ | ⟨ds, rfl, -, -, hd, -⟩
      · simp
      · exact noSpace_cons (by decide) fun c hc => decDigit_noSpace (hd c hc)
    have hzone : ∀ c ∈ zone, isSpace c = false := by
      rcases ho with ⟨rfl, -⟩ | ⟨rfl, -⟩ | ⟨sign, hh, m, x, y, rfl, hx, hy, -, -, hs⟩
      · simp
      · decide
      · have : isSpace sign = false := by rcases hs with ⟨rfl, -⟩ | ⟨rfl, -⟩ <;> decide
        exact noSpace_append (noSpace_cons this (twoDigits_noSpace hx)) (noSpace_cons (by decide) (twoDigits_noSpace hy))
    exact noSpace_append (noSpace_append (noSpace_append (noSpace_append (noSpace_append (isoDate_noSpace hday)
      (noSpace_cons (by decide) (twoDigits_noSpace h1))) (noSpace_cons (by decide) (twoDigits_noSpace h2)))
      (noSpace_cons (by decide) (twoDigits_noSpace h3))) hfrac) hzone

theorem timeText_strip {s : Str} {k : KmlDateTime} (h : TimeText s k) : strip s = s := strip_noSpace (timeText_noSpace h)

theorem fullYear_inUtc {k : KmlDateTime} (h : FullYear k) : FullYear (inUtc k) := by
  obtain ⟨dt, res⟩ := k
  cases dt <;> exact h

theorem nearZone_inUtc {s : Str} {k : KmlDateTime} (h : TimeText s k) : NearZone (inUtc k) := by
  intro d t o hd ho
  obtain ⟨dt, res⟩ := k
  cases dt with
  | date d => cases hd
  | dt d' t' =>
    cases res <;> simp only [TimeText] at h <;> try exact h.elim
    obtain ⟨day, hh, mi, sec, frac, zone, -, -, -, -, -, -, -, -, -, -, hoff⟩ := h
    simp only [inUtc, Moment.dt.injEq] at hd
    obtain ⟨rfl, rfl⟩ := hd
    simp only [Option.some.injEq] at ho
    subst ho
    cases ht : t'.off with
    | none => decide
    | some q => exact offset_near hoff q ht

/-! ## Texts -/

/-- Plain texts can be written again. -/
theorem keptOk_of_plain [LawfulExt F] [ReadsTimes F] {t : QN} {s : Str} (h : plainOk t s) : keptOk F t s := by
  refine ⟨h.1, h.2.number, fun ht k hk => ?_, h.2.name⟩
  obtain ⟨k0, hk0, hy⟩ := h.2.time ht
  rw [timeText_strip hk0, or_self, C76_read hk0] at hk
  cases hk
  exact ⟨fullYear_inUtc hy, nearZone_inUtc hk0⟩

theorem kind_time {c : Cls} {n : Str} {t : Option QN} (h : kindOf c n t = .time) : t = some (.q .kml (s% "dateTimeType")) := by
  unfold kindOf at h
  split at h
  · cases h
  split at h
  · cases h
  split at h
  · cases h
  split at h
  · cases h
  · split at h
    · cases h
    split at h
    · cases h
    split at h
    · cases h
    split at h
    · cases h
    split at h
    · rename_i ht; rw [ht]
    · cases h

/-- Plain texts are well-formed, where fastkml does not deviate from the schemas. -/
theorem wellFormed_of_plain [LawfulExt F] [ReadsTimes F] {c : Cls} (hc : ¬ (c = .Lod ∨ c = .atom_Link ∨ c = .SimpleField)) {n : Str}
    {t : QN} {s u : Str} (hs : plainOk t s) (hu : u = strip s ∨ u = s) : WellFormedTime F c n (some t) u := by
  simp only [WellFormedTime]
  split
  · rename_i hk
    have ht := kind_time hk
    cases ht
    obtain ⟨k, hk0, -⟩ := hs.2.time rfl
    have : u = s := hu.elim (fun h => h.trans (timeText_strip hk0)) id
    rw [hk, this]
    exact ⟨_, C76_read hk0⟩
  · exact fun h => absurd h hc

theorem intParse_integer {i : Int} {s : Str} (h : IntegerText i s) : ∃ j, intParse s = some j := intParse_padded (padded_of ⟨i, h⟩)

/-! ## Numbers -/

theorem floats_of_decimal [ReadsDoubles F] {ws : List Str} (h : ∀ w ∈ ws, Decimal w) : ∃ p : Pt F, floatsOf ws = some p := by
  induction ws with
  | nil => exact ⟨[], rfl⟩
  | cons w ws ih =>
    obtain ⟨p, hp⟩ := ih fun x hx => h x (List.mem_cons_of_mem _ hx)
    obtain ⟨neg, m, k, e, hw⟩ := h w List.mem_cons_self
    obtain ⟨f, hf⟩ := ReadsDoubles.parse_double (F := F) w (padded_of (.inr ⟨neg, m, k, e, hw⟩))
    exact ⟨f :: p, by simp [floatsOf, hf, hp]⟩

theorem floats_mem {ws : List Str} {p : Pt F} (h : floatsOf ws = some p) : ∀ f ∈ p, ∃ w ∈ ws, PyExt.parse w = some f := by
  induction ws generalizing p with
  | nil => cases h; simp
  | cons w ws ih =>
    simp only [floatsOf] at h
    split at h
    · rename_i f fs hf hfs
      cases h
      intro g hg
      rcases List.mem_cons.mp hg with rfl | hg
      · exact ⟨w, List.mem_cons_self, hf⟩
      · obtain ⟨w', hw', h'⟩ := ih hfs g hg
        exact ⟨w', List.mem_cons_of_mem _ hw', h'⟩
    · cases h

theorem decimal_plain {s : Str} (h : Decimal s) : s ≠ [] ∧ ∀ c ∈ s, isSpace c = false ∧ c ≠ ',' := by
  obtain ⟨neg, m, k, e, h⟩ := h
  have hns := doubleText_noSpace (.inr ⟨neg, m, k, e, h⟩)
  obtain ⟨sg, mt, ex, rfl, hsg, ⟨a, b, ha, hb, hne, -, -, hs⟩, hex⟩ := h
  refine ⟨?_, fun c hc => ⟨hns c hc, ?_⟩⟩
  · intro h0
    have h0 := (List.append_eq_nil_iff.mp (List.append_eq_nil_iff.mp h0).1).2
    rcases hs with rfl | ⟨rfl, rfl⟩
    · simp at h0
    · exact hne (by simpa using h0)
  · have dig : ∀ {c : Char}, '0' ≤ c ∧ c ≤ '9' → c ≠ ',' := by
      rintro c h rfl
      exact absurd h (by decide)
    have sign : ∀ {neg : Bool} {sg : Str}, SignText neg sg → ∀ c ∈ sg, c ≠ ',' := by
      intro neg sg h c hc
      cases neg with
      | true => have h : sg = ['-'] := h; subst h; simp at hc; subst hc; decide
      | false =>
        rcases h with rfl | rfl
        · cases hc
        · simp at hc; subst hc; decide
    simp only [List.mem_append] at hc
    rcases hc with (hc | hc) | hc
    · exact sign hsg c hc
    · rcases hs with rfl | ⟨rfl, rfl⟩
      · rcases List.mem_append.mp hc with hc | hc
        · exact dig (ha c hc)
        · rcases List.mem_cons.mp hc with rfl | hc
          · decide
          · exact dig (hb c hc)
      · exact dig (ha c hc)
    · rcases hex with ⟨rfl, -⟩ | ⟨x, t, hx, rfl, neg', sg', ds, rfl, hsg', -, hds, -⟩
      · cases hc
      · rcases List.mem_cons.mp hc with rfl | hc
        · rcases hx with rfl | rfl <;> decide
        · rcases List.mem_append.mp hc with hc | hc
          · exact sign hsg' c hc
          · exact dig (hds c hc)

theorem tuples_of_words [ReadsDoubles F] {ts : List (List Str)} (h : ∀ t ∈ ts, (t.length = 2 ∨ t.length = 3) ∧ ∀ w ∈ t, Decimal w) :
    ∃ l : List (Pt F), tuplesOf (ts.map (join [','])) = some l ∧ ∀ p ∈ l, p.length = 2 ∨ p.length = 3 := by
  induction ts with
  | nil => exact ⟨[], rfl, by simp⟩
  | cons t ts ih =>
    obtain ⟨l, hl, hlen⟩ := ih fun x hx => h x (List.mem_cons_of_mem _ hx)
    obtain ⟨h1, h2⟩ := h t List.mem_cons_self
    obtain ⟨p, hp⟩ := floats_of_decimal (F := F) h2
    have hs : splitOn ',' (join [','] t) = t :=
      splitOn_join (by intro h0; rw [h0] at h1; simp at h1) fun w hw hc => ((decimal_plain (h2 w hw)).2 _ hc).2 rfl
    refine ⟨p :: l, by simp [tuplesOf, hs, hp, hl], ?_⟩
    intro q hq
    rcases List.mem_cons.mp hq with rfl | hq
    · rw [floatsOf_length hp]; exact h1
    · exact hlen q hq

/-- Coordinates are read. -/
theorem tuples_of_text [ReadsDoubles F] {s : Str} (h : CoordinatesText s) :
    ∃ l : List (Pt F), tuplesOf (latlons s) = some l ∧ ∀ p ∈ l, p.length = 2 ∨ p.length = 3 := by
  rcases h with h | ⟨sp, hok, rfl, h⟩
  · have : strip s = [] := (strip_nil_iff s).mpr h
    refine ⟨[], ?_, by simp⟩
    simp only [latlons, this]
    rfl
  · rw [latlons_spaced sp hok]
    exact tuples_of_words h

/-! ## Names -/

/-- What is known of the names that the schemas declare. -/
def nameFacts (x : Typed) : Bool :=
  (!decide (x.1.name ∈ timeNames) || decide (x = (.q .kml x.1.name, some (.q .kml (s% "dateTimeType"))))) &&
  (!decide (x.1.name = s% "coord") || decide (x.1 = .q .gx (s% "coord"))) &&
  (!decide (x.1.name = s% "coordinates") || decide (x.1 = .q .kml (s% "coordinates"))) &&
  (!decide (x.1.name = s% "Schema") || decide (x.1 = .q .kml (s% "Schema"))) &&
  decide ('}' ∉ x.1.name) &&
  (decide (x.1 = .q .gx (s% "TimeStamp") ∨ x.1 = .q .gx (s% "TimeSpan")) ||
    Cls.all.all fun c => !decide ((fastkml.info c).tag = x.1.name) || decide (uri x.1.ns = nsGet (mergeNs []) (fastkml.info c).nsid))

theorem declared_facts : (xsdTypes.all fun t => (partsOf 8 t.name).all fun p => p.elems.all nameFacts) = true := by decide +kernel

theorem nameFacts_of {T : QN} {x : Typed} (h : ∃ p ∈ partsOf 8 T, x ∈ p.elems) : nameFacts x = true := by
  obtain ⟨p, hp, hx⟩ := h
  cases hd : typeDecl T with
  | none =>
    have : partsOf 8 T = [] := by simp only [partsOf, hd]
    rw [this] at hp
    cases hp
  | some ty =>
    have hm : ty ∈ xsdTypes := List.mem_of_find?_eq_some (p := fun t : XType => t.name.same T) hd
    have hn : ty.name = T := QN.same_iff.mp (List.find?_some (p := fun t : XType => t.name.same T) hd)
    have := List.all_eq_true.mp (List.all_eq_true.mp (List.all_eq_true.mp declared_facts ty hm) p (by rw [hn]; exact hp)) x hx
    exact this

/-- The elements of a valid document: the document itself, and elements that are declared. -/
theorem valid_sub {ok : QN → Str → Prop} {e d : Xml} (hs : Sub e d) : ∀ {T : QN}, Valid ok T e →
    d = e ∨ ∃ T' q t, (∃ p ∈ partsOf 8 T', (q, some t) ∈ p.elems) ∧ d.tag = tagOf q ∧ Valid ok t d := by
  induction hs with
  | refl e => exact fun _ => .inl rfl
  | @kid e k d hk _ ih =>
    intro T hv
    obtain ⟨q, t, htag, hp, hvk⟩ := valid_kid hv hk
    rcases ih hvk with rfl | h
    · exact .inr ⟨T, q, t, hp, htag, hvk⟩
    · exact .inr h

/-- What is known of the names of classes. -/
theorem class_facts {c : Cls} (hc : elemType c ≠ none) : nameFacts (elemName c, none) = true ∧ (elemName c).name ∉ timeNames := by
  have key : ∀ c ∈ Cls.all, (decide (elemType c = none) || (nameFacts (elemName c, none) && decide ((elemName c).name ∉ timeNames))) = true := by
    decide +kernel
  have := key c (Cls.mem_all c)
  simpa [hc] using this

theorem uri_form (x : XNs) : NsForm (uri x) := by
  cases x
  · exact .inr ⟨s% "{http://www.opengis.net/kml/2.2", rfl⟩
  · exact .inr ⟨s% "{http://www.google.com/kml/ext/2.2", rfl⟩
  · exact .inr ⟨s% "{http://www.w3.org/2005/Atom", rfl⟩
  · exact .inr ⟨s% "{urn:oasis:names:tc:ciq:xsdschema:xAL:2.0", rfl⟩
  · exact .inr ⟨s% "{http://www.w3.org/2001/XMLSchema", rfl⟩

theorem nsOk_plain : NsOk (mergeNs []) := nsOk_merge (fun p hp => by cases hp)

/-- The element has a name, and if the name is that of a time it has the type. -/
theorem named_sub {ok : QN → Str → Prop} {c : Cls} {T : QN} {e d : Xml} (hc : elemType c ≠ none) (hr : e.tag = tagOf (elemName c))
    (hv : Valid ok T e) (hs : Sub e d) : ∃ q t, d.tag = tagOf q ∧ nameFacts (q, t) = true ∧ (∀ t', t = some t' → Valid ok t' d) ∧
      ∃ T', Valid ok T' d := by
  rcases valid_sub hs hv with rfl | ⟨T', q, t, hp, htag, hvd⟩
  · exact ⟨elemName c, none, hr, (class_facts hc).1, (fun _ h => by cases h), T, hv⟩
  · exact ⟨q, some t, htag, nameFacts_of hp, (fun t' h => by cases h; exact hvd), t, hvd⟩

/-- XML attributes have no namespace. -/
theorem attr_plain {ok : QN → Str → Prop} {T : QN} {d : Xml} (hv : Valid ok T d) {n a s : Str} (hk : KnownAs (mergeNs []) n a)
    (hs : d.get a = some s) : a = n := by
  have key : (xsdTypes.all fun t => (typeAttrs 8 t.name).all fun a => decide ('}' ∉ a.name)) = true := by decide +kernel
  cases hv with
  | simple _ hattr _ _ => simp [Xml.get, hattr, dget] at hs
  | @complex _ ty _ qs hd hattr _ _ _ _ =>
    obtain ⟨x, hx, rfl, -⟩ := hattr _ _ hs
    have hm : ty ∈ xsdTypes := List.mem_of_find?_eq_some (p := fun t : XType => t.name.same T) hd
    have hn : ty.name = T := QN.same_iff.mp (List.find?_some (p := fun t : XType => t.name.same T) hd)
    have h1 := List.all_eq_true.mp (List.all_eq_true.mp key ty hm) x (by rw [hn]; exact hx)
    simp only [decide_eq_true_eq] at h1
    obtain ⟨id, h2⟩ := hk
    rcases nsGet_form nsOk_plain id with h3 | ⟨u, h3⟩
    · rw [h2, h3]; rfl
    · rw [h2, h3] at h1
      simp at h1

theorem known_name {n : Str} {q : QN} (hn : '}' ∉ n) (hq : '}' ∉ q.name) (h : KnownAs (mergeNs []) n (tagOf q)) : q.name = n := by
  obtain ⟨id, h⟩ := h
  cases q with
  | q ns m => exact (tag_inj (uri_form ns) (nsGet_form nsOk_plain id) hq hn h).2

theorem classFor_name {q : QN} {d : Cls} (h : classFor q = some d) : elemName d = q :=
  QN.same_iff.mp (List.find?_some (p := fun d => (elemName d).same q) h)

theorem childrenNamed_mem {e k : Xml} {q : QN} : k ∈ childrenNamed e q ↔ k ∈ e.kids ∧ k.tag = tagOf q := by
  simp [childrenNamed]

/-- A time in a valid document is plain. -/
theorem when_plain {T : QN} {e k : Xml} (hv : Valid plainOk T e) (hk : k ∈ e.kids) {n : Str} (hn : n ∈ timeNames)
    (ht : k.tag = tagOf (.q .kml n)) {s : Str} (hs : k.text = some s) : ∃ m, TimeText s m ∧ FullYear m := by
  obtain ⟨q, t, htag, hp, hvk⟩ := valid_kid hv hk
  have hq : q = .q .kml n := tagOf_inj (htag.symm.trans ht)
  subst hq
  have hf := nameFacts_of hp
  simp only [nameFacts, Bool.and_eq_true, Bool.or_eq_true, Bool.not_eq_true', decide_eq_false_iff_not, decide_eq_true_eq] at hf
  have ht := hf.1.1.1.1.1.resolve_left fun h => h hn
  cases ht
  cases hvk with
  | simple hd _ _ htx => exact (htx s hs).2.time rfl
  | complex hd => exact absurd hd (by have : typeDecl (.q .kml (s% "dateTimeType")) = none := by decide +kernel
                                      rw [this]; simp)

/-! ## Opening -/

theorem link_kinds {T : QN} (hT : T ∈ typesOf .atom_Link) {a : XAttr} (ha : a ∈ typeAttrs 8 T) :
    a.name = s% "length" ∨ kindOf .atom_Link a.name a.type = .text := by
  have key : ∀ T ∈ typesOf .atom_Link, ∀ a ∈ typeAttrs 8 T, a.name = s% "length" ∨ kindOf .atom_Link a.name a.type = .text := by
    decide +kernel
  exact key T hT a ha

theorem field_kinds {T : QN} (hT : T ∈ typesOf .SimpleField) {a : XAttr} (ha : a ∈ typeAttrs 8 T) :
    a.name = s% "type" ∨ kindOf .SimpleField a.name a.type = .text := by
  have key : ∀ T ∈ typesOf .SimpleField, ∀ a ∈ typeAttrs 8 T, a.name = s% "type" ∨ kindOf .SimpleField a.name a.type = .text := by
    decide +kernel
  exact key T hT a ha

theorem lod_attrs {T : QN} (hT : T ∈ typesOf .Lod) {a : XAttr} (ha : a ∈ typeAttrs 8 T) : a.name ∈ unsupportedAttrs .Lod := by
  have key : ∀ T ∈ typesOf .Lod, ∀ a ∈ typeAttrs 8 T, a.name ∈ unsupportedAttrs .Lod := by decide +kernel
  exact key T hT a ha

theorem special_kids {c : Cls} (hc : c = .atom_Link ∨ c = .SimpleField) {T : QN} (hT : T ∈ typesOf c) {q t : QN}
    (h : ∃ p ∈ partsOf 8 T, (q, some t) ∈ p.elems) : kindOf c q.name (some t) = .text := by
  obtain ⟨p, hp, hx⟩ := h
  have key : ∀ c ∈ [Cls.atom_Link, .SimpleField], ∀ T ∈ typesOf c, ∀ p ∈ partsOf 8 T, ∀ x ∈ p.elems, kindOf c x.1.name x.2 = .text := by
    decide +kernel
  exact key c (by simpa using hc) T hT p hp _ hx

theorem wellFormed_reads {c : Cls} {n : Str} {t : Option QN} {s : Str} (h : Reads F (kindOf c n t) s) : WellFormedTime F c n t s := by
  simp only [WellFormedTime]
  split
  · exact h
  · exact fun _ => h

/-- The texts of ordinary documents can be read. -/
theorem fit_of_ordinary [LawfulExt F] [ReadsDoubles F] [ReadsTimes F] {e : Xml} : ∀ {c : Cls} {T : QN}, T ∈ typesOf c →
    e.tag = tagOf (elemName c) → Valid plainOk T e → (∀ d, Sub e d → OrdinaryNode d) → Fit F (WellFormedTime F) e c T := by
  induction e using Xml.ind with
  | h tag as tx ks ih =>
    intro c T hT hr hv hor
    have ho := hor _ (.refl _)
    rw [fit_iff]
    refine ⟨?_, ?_, ?_, ?_, ?_⟩
    · intro a ha hu p hp s hs hne
      cases hv with
      | simple hd hattr hk ht =>
        simp only [Xml.attrs] at hattr
        subst hattr
        cases hs
      | complex hd hattr hreq hx hq hk =>
        obtain ⟨a', ha', hname, htx⟩ := hattr _ _ hs
        obtain ⟨hnd, hbr⟩ := attr_names hT
        have hp0 : p = [] := by
          rcases hp with rfl | ⟨x, rfl⟩
          · rfl
          · exfalso
            refine hbr a' ha' ?_
            rw [hname]
            cases x <;> rfl
        subst hp0
        have : a' = a := injOn_of_nodup_map hnd ha' ha (by simpa using hname)
        subst this
        rw [List.nil_append] at hs
        by_cases hc : c = .Lod ∨ c = .atom_Link ∨ c = .SimpleField
        · rcases hc with rfl | rfl | rfl
          · exact absurd (lod_attrs hT ha') hu
          · rcases link_kinds hT ha' with h | h
            · have hk : kindOf .atom_Link a'.name a'.type = .int := by simp [kindOf, h]
              rw [h] at hs
              obtain ⟨i, hi⟩ := ho.link hr s hs hne
              refine wellFormed_reads ?_
              rw [hk]
              exact intParse_integer hi
            · refine wellFormed_reads ?_
              rw [h]; trivial
          · rcases field_kinds hT ha' with h | h
            · rw [h] at hs
              refine wellFormed_reads ?_
              simp only [kindOf, h]
              exact ho.field hr s hs hne
            · refine wellFormed_reads ?_
              rw [h]; trivial
        · cases hty : a'.type with
          | none =>
            simp only [WellFormedTime]
            split
            · rename_i hk
              exact absurd (kind_time hk) (by simp)
            · exact fun h => absurd h hc
          | some t => exact wellFormed_of_plain hc (htx t hty) (.inr rfl)
    · rintro rfl s hs
      exact tuples_of_text (ho.coordinates hr s hs)
    · rintro rfl
      obtain ⟨s, hs, hne⟩ := ho.schema hr
      exact ⟨s, hs, fun h => hne (by rw [h]; rfl)⟩
    · rintro rfl
      refine ⟨fun k hk => ?_, fun k hk => ?_, fun k hk s hs => ?_, ?_⟩
      · cases hkt : k.text with
        | none => exact absurd hkt (ho.times hr k hk)
        | some s =>
          obtain ⟨hk1, hk2⟩ := childrenNamed_mem.mp hk
          obtain ⟨m, hm, -⟩ := when_plain hv hk1 (by decide) hk2 hkt
          exact ⟨s, rfl, _, C76_read hm⟩
      · obtain ⟨s, hs, hl, hw⟩ := (hor k (.kid (childrenNamed_mem.mp hk).1 (.refl _))).position (childrenNamed_mem.mp hk).2
        obtain ⟨p, hp⟩ := floats_of_decimal (F := F) hw
        exact ⟨s, hs, p, hp, by rw [floatsOf_length hp]; exact hl⟩
      · obtain ⟨hl, hw⟩ := (hor k (.kid (childrenNamed_mem.mp hk).1 (.refl _))).angle (childrenNamed_mem.mp hk).2 s hs
        obtain ⟨p, hp⟩ := floats_of_decimal (F := F) hw
        exact ⟨p, hp, by rw [floatsOf_length hp]; exact hl⟩
      · exact ⟨Nat.le_of_eq (ho.rows hr).1, (ho.rows hr).2⟩
    · intro k hk q t hkq hdecl hu hrow
      rw [fitKids_map] at hk
      obtain ⟨k', hk', rfl⟩ := List.mem_map.mp hk
      simp only at hkq ⊢
      have hvk : Valid plainOk t k' := by
        obtain ⟨p, hp, hx⟩ := hdecl
        obtain ⟨q', t', hkq', ⟨p', hp', hx'⟩, hv'⟩ := valid_kid hv (k := k') hk'
        have hqq : q = q' := tagOf_inj (hkq.symm.trans hkq')
        subst hqq
        have := unique_types hT hp hx hp' hx'
        cases this
        exact hv'
      cases hcf : classFor q with
      | some d =>
        simp only
        obtain ⟨p, hp, hx⟩ := hdecl
        have hco : childOk c (partsOf 8 T) q t = true :=
          List.all_eq_true.mp (List.all_eq_true.mp (fastkml_childrenOk hT) p hp) _ hx
        simp only [childOk, Bool.or_eq_true, hasQN_iff, hu, hrow, false_or] at hco
        obtain ⟨it, -, hrd⟩ := List.any_eq_true.mp hco
        simp only [readsChild, hcf, Bool.and_eq_true, hasQN_iff] at hrd
        exact ih k' hk' hrd.2.1.2 (by rw [classFor_name hcf]; exact hkq) hvk fun d hd => hor d (.kid hk' hd)
      | none =>
        simp only
        intro s hs
        by_cases hsp : c = .Lod ∨ c = .atom_Link ∨ c = .SimpleField
        · refine wellFormed_reads ?_
          rcases hsp with rfl | hsp
          · have hk : kindOf .Lod q.name (some t) = .int := by simp [kindOf]
            rw [hk]
            obtain ⟨i, hi⟩ := ho.lod hr k' hk' s hs
            exact intParse_integer hi
          · rw [special_kids hsp hT hdecl]; trivial
        · cases hvk with
          | simple hd hattr hk ht =>
            cases hkt : k'.text with
            | none => rw [hkt] at hs; cases hs
            | some u =>
              rw [hkt] at hs
              simp only [trimmed] at hs
              split at hs
              · cases hs
              · cases hs
                exact wellFormed_of_plain hsp (ht u hkt) (.inl rfl)
          | complex hd _ _ _ _ _ =>
            refine wellFormed_reads ?_
            rw [kind_complex hd hsp]
            trivial

/-! ## Saving -/

/-- Ordinary documents are in the namespaces that fastkml expects. -/
theorem standard_of_ordinary {c : Cls} {T : QN} {e : Xml} (hc : elemType c ≠ none) (hr : e.tag = tagOf (elemName c))
    (hv : Valid plainOk T e) (hor : ∀ d, Sub e d → OrdinaryNode d) : Standard (mergeNs []) e := by
  intro d hd c' n hn htag
  obtain ⟨q, t, hq, hf, -, -⟩ := named_sub hc hr hv hd
  simp only [nameFacts, Bool.and_eq_true, Bool.or_eq_true, Bool.not_eq_true', decide_eq_false_iff_not, decide_eq_true_eq,
    List.all_eq_true] at hf
  have htags : ∀ c ∈ Cls.all, '}' ∉ (fastkml.info c).tag := by decide +kernel
  have hx := (hor d hd).gxTimes
  cases q with
  | q ns m =>
    obtain ⟨h1, h2⟩ := tag_inj hn (uri_form ns) (htags c' (Cls.mem_all c')) hf.1.2 (htag.symm.trans hq)
    have h3 := hf.2.resolve_left fun h => by
      rcases h with h | h
      · exact hx.1 (by rw [hq, h])
      · exact hx.2 (by rw [hq, h])
    rw [h1]
    exact (h3 c' (Cls.mem_all c')).resolve_left fun h => h h2

/-- The content of ordinary documents lasts. -/
theorem lasting_of_ordinary [LawfulExt F] [ReadsDoubles F] [ReadsTimes F] [DecimalNumbers F] {c : Cls} {T : QN} {e : Xml}
    (hc : elemType c = some T) (hr : e.tag = tagOf (elemName c)) (hv : Valid plainOk T e) (hor : ∀ d, Sub e d → OrdinaryNode d) :
    LastingDoc F (mergeNs []) e := by
  intro d hd
  have ho := hor d hd
  obtain ⟨q, t, hq, hf, hvd, T', hvT⟩ := named_sub (by rw [hc]; simp) hr hv hd
  simp only [nameFacts, Bool.and_eq_true, Bool.or_eq_true, Bool.not_eq_true', decide_eq_false_iff_not, decide_eq_true_eq,
    List.all_eq_true] at hf
  obtain ⟨⟨⟨⟨⟨f1, f2⟩, f3⟩, f4⟩, f5⟩, -⟩ := hf
  have hbr : ∀ n ∈ timeNames ++ [s% "coord", s% "coordinates", s% "Schema", s% "id"], '}' ∉ n := by decide
  have name : ∀ {n}, n ∈ timeNames ++ [s% "coord", s% "coordinates", s% "Schema", s% "id"] → KnownAs (mergeNs []) n d.tag → q.name = n :=
    fun hn h => known_name (hbr _ hn) f5 (hq ▸ h)
  refine ⟨fun n hn hk s k hs hp => ?_, fun hk p hp => ?_, fun hk s hs l hl => ?_, fun hk a ha s hs hne => ?_⟩
  · have hqn := name (List.mem_append_left _ hn) hk
    have hx := f1.resolve_left fun h => h (hqn ▸ hn)
    simp only [Prod.mk.injEq] at hx
    obtain ⟨m, hm, hy⟩ : ∃ m, TimeText s m ∧ FullYear m := by
      cases hvd _ hx.2 with
      | simple hd _ _ htx => exact (htx s hs).2.time rfl
      | complex hd => exact absurd hd (by have : typeDecl (.q .kml (s% "dateTimeType")) = none := by decide +kernel
                                          rw [this]; simp)
    rw [timeText_strip hm, or_self, C76_read hm] at hp
    cases hp
    exact fullYear_inUtc hy
  · have hqn := name (n := s% "coord") (by decide) hk
    have hx := f2.resolve_left fun h => h hqn
    obtain ⟨s, hs, -, hw⟩ := ho.position (by rw [hq, hx])
    intro f hf
    simp only [numbersIn, hs] at hp
    split at hp
    · cases hp
    · obtain ⟨w, hw', hpar⟩ := floats_mem hp f hf
      exact DecimalNumbers.not_nan w f (hw w hw') hpar
  · have hqn := name (n := s% "coordinates") (by decide) hk
    have hx := f3.resolve_left fun h => h hqn
    obtain ⟨l', hl', hlen⟩ := tuples_of_text (F := F) (ho.coordinates (by rw [hq, hx]) s hs)
    rw [hl'] at hl
    cases hl
    exact hlen
  · have hqn := name (n := s% "Schema") (by decide) hk
    have hx := f4.resolve_left fun h => h hqn
    obtain ⟨s', hs', hne'⟩ := ho.schema (by rw [hq, hx])
    have h1 : d.get a = some s := hs
    rw [attr_plain hvT ha h1, hs'] at h1
    cases h1
    exact hne'

/-- Tags of ordinary documents have a namespace. -/
theorem findall_bare {ok : QN → Str → Prop} {T : QN} {e : Xml} (hv : Valid ok T e) {n : Str} (hn : '}' ∉ n) : e.findall n = [] := by
  rw [Xml.findall, List.filter_eq_nil_iff]
  intro k hk
  obtain ⟨q, t, htag, hp, -⟩ := valid_kid hv hk
  cases q with
  | q ns m =>
    simp only [decide_eq_true_eq, htag]
    intro h
    refine hn (h ▸ ?_)
    rcases uri_form ns with h0 | ⟨u, h0⟩
    · cases ns <;> cases h0
    · simp [tagOf, h0]

theorem filterMap_length {α β : Type} {f : α → Option β} {l : List α} (h : ∀ a ∈ l, f a ≠ none) : (l.filterMap f).length = l.length := by
  induction l with
  | nil => rfl
  | cons a l ih =>
    have h1 := ih fun x hx => h x (List.mem_cons_of_mem _ hx)
    cases hf : f a with
    | none => exact absurd hf (h a List.mem_cons_self)
    | some b => simp [List.filterMap_cons, hf, h1]

/-- The content of ordinary documents comes back in the order of the schemas. -/
theorem orderly_of_ordinary [LawfulExt F] [ReadsTimes F] {c : Cls} {T : QN} {e : Xml}
    (hc : elemType c ≠ none) (hr : e.tag = tagOf (elemName c)) (hv : Valid plainOk T e) (hor : ∀ d, Sub e d → OrdinaryNode d)
    {d : Xml} (hd : Sub e d) : Orderly F (mergeNs []) d := by
  have ho := hor d hd
  refine ⟨fun ht => ?_, ho.document, ho.root⟩
  obtain ⟨q, t, hq, hf, -, T', hvT⟩ := named_sub hc hr hv hd
  have hgx : nsGet (mergeNs []) (s% "gx") = uri .gx := by decide +kernel
  have hkml : nsGet (mergeNs []) (s% "kml") = uri .kml := by decide +kernel
  have hnil : nsGet (mergeNs []) [] = [] := by decide +kernel
  have h1 : (positionsOf (F := F) (mergeNs []) d).length ≤ (childrenNamed d (.q .gx (s% "coord"))).length := by
    simp only [positionsOf, gathered, hgx, hnil, List.nil_append, findall_bare hvT (show '}' ∉ s% "coord" by decide), List.filterMap_nil]
    have : d.findall (uri .gx ++ s% "coord") = childrenNamed d (.q .gx (s% "coord")) := rfl
    rw [this]
    split
    · exact Nat.zero_le _
    · exact List.length_filterMap_le _ _
  have h2 : (childrenNamed d (.q .kml (s% "when"))).length ≤ (timesOf F (mergeNs []) d).length := by
    simp only [timesOf, gathered, hkml]
    have : d.findall (uri .kml ++ s% "when") = childrenNamed d (.q .kml (s% "when")) := rfl
    rw [this]
    have hlen : ((childrenNamed d (.q .kml (s% "when"))).filterMap (timeIn F)).length = (childrenNamed d (.q .kml (s% "when"))).length := by
      refine filterMap_length fun k hk => ?_
      cases hkt : k.text with
      | none => exact absurd hkt (ho.times ht k hk)
      | some s =>
        obtain ⟨hk1, hk2⟩ := childrenNamed_mem.mp hk
        obtain ⟨m, hm, -⟩ := when_plain hvT hk1 (by decide) hk2 hkt
        simp [timeIn, hkt, C76_read (F := F) hm]
    split
    · rename_i h0
      rw [h0] at hlen
      rw [← hlen]
      exact Nat.zero_le _
    · rw [hlen]; exact Nat.le_refl _
  exact Nat.le_trans h1 (Nat.le_trans (Nat.le_of_eq (ho.rows ht).1.symm) h2)

/-! ## The theorems -/

/-- **C77.** An ordinary document is opened strictly, everything in it that is supported is
in the object, it is saved, and what is saved is a valid document again. -/
theorem C77_opened [LawfulExt F] [ReadsDoubles F] [ReadsTimes F] [KeepsRanges F] {c : Cls} {T : QN} (hc : elemType c = some T)
    {e : Xml} (hr : e.tag = tagOf (elemName c)) (ho : Ordinary T e) :
    ∃ v : Val Cls F, fromElement fastkml true c none [] e = .ok v ∧ Kept e c T v ∧
      ∀ o : Opts, ∃ e', ser fastkml o v = .ok e' ∧ (o.verbosity ≠ .verbose → truthy fastkml v = .ok true →
        e'.tag = e.tag ∧ Valid lexOk T e') :=
  C74_opened hc hr (valid_mono (fun _ _ h => keptOk_of_plain h) e ho.valid)
    (fit_of_ordinary (by simp [typesOf, hc]) hr ho.valid ho.nodes)
    fun _ hd => orderly_of_ordinary (by rw [hc]; simp) hr ho.valid ho.nodes hd

/-- **C77, strings.** The text of an ordinary document is opened by `from_string`, and the
text that `to_string` then gives is opened as the same object again, except for empty
objects. -/
theorem C77_string [LawfulExt F] [AsciiExt F] [ReadsDoubles F] [ReadsTimes F] [DecimalNumbers F] {W : Etree} (hW : Faithful W)
    {t : Str} {e : Xml} (hf : W.fromstring t = .ok e) {c : Cls} {T : QN} (hc : elemType c = some T)
    (hr : e.tag = tagOf (elemName c)) (ho : Ordinary T e) (hg : LegalDoc e) (pp : Bool) :
    ∃ (v : Val Cls F) (t' : Str), fromString W true c none [] t = .ok v ∧ Kept e c T v ∧
      toString W pp ⟨none, .normal⟩ v = .ok t' ∧ ∀ strict, fromString W strict c none [] t' = .ok (prune v) :=
  C73_string hW hf hc hr (valid_mono (fun _ _ h => h.1) e ho.valid) (fit_of_ordinary (by simp [typesOf, hc]) hr ho.valid ho.nodes)
    (standard_of_ordinary (by rw [hc]; simp) hr ho.valid ho.nodes) hg (lasting_of_ordinary hc hr ho.valid ho.nodes) pp

/-- **C77, files.** The same for `KML.parse` and `KML.write`. -/
theorem C77_file [LawfulExt F] [AsciiExt F] [ReadsDoubles F] [ReadsTimes F] [DecimalNumbers F] {W : Etree} (hW : Faithful W)
    {fs : FS} {p : Str × Str} {val : Option Bool} {root : Xml} (hload : loadRoot W fs p true val = .ok root) {T : QN}
    (hT : elemType .KML = some T) (hr : root.tag = tagOf (elemName .KML)) (ho : Ordinary T root) (hg : LegalDoc root)
    (q : Str × Str) (hq : ¬ KmzName q.2) (pp : Bool) :
    ∃ (v : Val Cls F) (fs' : FS), (kmlParse W fs p none none true val).1 = .ok v ∧ Kept root .KML T v ∧
      kmlWrite W fs q pp ⟨none, .normal⟩ v = (fs', .ok ()) ∧
      ∀ strict val', (∀ e, ser fastkml ⟨none, .normal⟩ v = .ok e → Passes W strict val' e) →
        (kmlParse W fs' q none none strict val').1 = .ok (prune v) :=
  C73_file hW hload hT hr (valid_mono (fun _ _ h => h.1) root ho.valid)
    (fit_of_ordinary (by simp [typesOf, hT]) hr ho.valid ho.nodes)
    (standard_of_ordinary (by rw [hT]; simp) hr ho.valid ho.nodes) hg (lasting_of_ordinary hT hr ho.valid ho.nodes) q hq pp

/-! ## Cases -/

theorem fix_nan {s : Str} (h : Decimal s) {f : Fix} (hf : Fix.parse s = some f) : f.val.isNone = false := by
  unfold Fix.parse at hf
  split at hf
  · rename_i h0
    obtain ⟨neg, m, k, e, hd⟩ := h
    rw [h0] at hd
    rcases doubleText_digit (.inr ⟨neg, m, k, e, hd⟩) with h1 | ⟨c, hc, h1⟩
    · exact absurd h1 (by decide)
    · have key : ∀ c ∈ s% "nan", ¬ ('0' ≤ c ∧ c ≤ '9') := by decide
      exact absurd h1 (key c hc)
  · split at hf
    all_goals
      rw [Option.map_eq_some_iff] at hf
      obtain ⟨n, -, rfl⟩ := hf
      rfl

instance : DecimalNumbers Fix where
  not_nan _ _ h hf := fix_nan h hf

instance : DecimalNumbers XFix where
  not_nan s f h hf := by
    have hf : XFix.parse s = some f := hf
    show f.val.val.isNone = false
    unfold XFix.parse at hf
    split at hf
    · rename_i g hg
      cases hf
      exact fix_nan h hg
    · split at hf
      · cases hf; rfl
      · rename_i hn
        obtain ⟨neg, m, k, e, hd⟩ := h
        exact absurd ⟨(neg, m, k, e), [], s, [], by simp, by simp, hd⟩ hn

theorem decimal_digits {w : Str} (h : DecDigits w) (hne : w ≠ []) : Decimal w :=
  ⟨false, positional w, 0, 0, [], w, [], by simp, .inl rfl, ⟨w, [], h, (by intro c hc; cases hc), by simpa using hne, by simp, rfl, .inr ⟨rfl, rfl⟩⟩,
    .inl ⟨rfl, rfl⟩⟩

/-- The words are numbers. -/
def digitsB (w : Str) : Bool := !w.isEmpty && w.all fun c => decide ('0' ≤ c) && decide (c ≤ '9')

theorem digitsB_sound {w : Str} (h : digitsB w = true) : Decimal w := by
  simp only [digitsB, Bool.and_eq_true, Bool.not_eq_true', List.isEmpty_eq_false_iff, List.all_eq_true, decide_eq_true_eq] at h
  exact decimal_digits h.2 h.1

/-- `plainOk` for the texts of the document below. -/
def plainTextB (t : QN) (s : Str) : Bool :=
  (lexB t s && !decide (t ∈ [.q .xs (s% "double"), .q .xs (s% "float"), .q .kml (s% "dateTimeType")]) && sameStr (strip s) s) ||
  (decide (t = .q .xs (s% "boolean")) && sameStr s (s% " true\n")) ||
  (decide (t = .q .xs (s% "double")) && sameStr s (s% " +1.5E1 ")) ||
  (decide (t = .q .kml (s% "dateTimeType")) && sameStr s (s% "2020-01-02T03:04:05.5+01:00")) ||
  (decide (t = .q .kml (s% "dateTimeType")) && sameStr s (s% "2020-01-02")) ||
  decide (t = .q .kml (s% "coordinatesType"))

theorem plainTextB_sound {t : QN} {s : Str} (h : plainTextB t s = true) : plainOk t s := by
  simp only [plainTextB, Bool.or_eq_true, Bool.and_eq_true, Bool.not_eq_true', decide_eq_false_iff_not, decide_eq_true_eq, sameStr_iff] at h
  have time {k : KmlDateTime} (hk : TimeText s k) (hy : FullYear k) (ht : t = .q .kml (s% "dateTimeType")) : plainOk t s := by
    refine ⟨?_, ⟨fun h => ?_, fun _ => ⟨k, hk, hy⟩, fun h => ?_⟩⟩
    · rw [ht]; exact lexOk_moment (C76_schema hk)
    · rw [ht] at h; exact absurd h (by decide +kernel)
    · rw [ht] at h; exact absurd h (by decide +kernel)
  rcases h with ((((⟨⟨h, hn⟩, hs⟩ | ⟨rfl, rfl⟩) | ⟨rfl, rfl⟩) | ⟨ht, hs⟩) | ⟨ht, hs⟩) | rfl
  · refine ⟨lexB_sound h, ⟨fun h => ?_, fun h => ?_, fun _ _ => hs.symm ▸ lexB_sound h⟩⟩
    · refine absurd ?_ hn
      rcases h with h | h <;> simp [h]
    · refine absurd ?_ hn
      simp [h]
  · exact ⟨scientificB_sound (by decide +kernel), ⟨fun h => absurd h (by decide +kernel), fun h => absurd h (by decide +kernel),
      fun h => absurd h (by decide +kernel)⟩⟩
  · refine ⟨scientificB_sound (by decide +kernel), ⟨fun _ => ⟨s% " ", s% "+1.5E1", s% " ", rfl, by decide, false, 15, 1, 1, ?_, by unfold Between; decide +kernel⟩,
      fun h => absurd h (by decide +kernel), fun h => absurd h (by decide +kernel)⟩⟩
    exact ⟨s% "+", s% "1.5", s% "E1", rfl, .inr rfl, ⟨s% "1", s% "5", by unfold DecDigits; decide, by unfold DecDigits; decide, by decide, rfl, rfl, .inl rfl⟩,
      .inr ⟨'E', s% "1", .inr rfl, rfl, false, [], s% "1", rfl, .inl rfl, by decide, by unfold DecDigits; decide, rfl⟩⟩
  · refine time (k := ⟨.dt ⟨2020, 1, 2⟩ ⟨3, 4, 5, 500000, some 60⟩, .datetime⟩) ?_ (by unfold FullYear; decide) ht
    rw [hs]
    exact ⟨s% "2020-01-02", s% "03", s% "04", s% "05", s% ".5", s% "+01:00", rfl, (isoDate_iff (by decide)).mpr (by decide), by decide,
      twoDigits_iff.mpr (by decide), by decide, twoDigits_iff.mpr (by decide), by decide, twoDigits_iff.mpr (by decide), by decide,
      .inr ⟨s% "5", rfl, by decide, by decide, by unfold DecDigits; decide, by decide⟩,
      .inr (.inr ⟨'+', s% "01", s% "00", 1, 0, rfl, twoDigits_iff.mpr (by decide), twoDigits_iff.mpr (by decide), by decide, by decide,
        .inl ⟨rfl, rfl⟩⟩)⟩
  · refine time (k := ⟨.date ⟨2020, 1, 2⟩, .date⟩) ?_ (by unfold FullYear; decide) ht
    rw [hs]
    exact ⟨(isoDate_iff (by decide)).mpr (by decide), by decide⟩
  · exact ⟨scientificB_sound (by unfold scientificB; simp), ⟨fun h => absurd h (by decide +kernel), fun h => absurd h (by decide +kernel),
      fun h => absurd h (by decide +kernel)⟩⟩

/-- `OrdinaryNode` for the elements of the document below. -/
def ordinaryB (d : Xml) : Bool :=
  (!decide (d.tag = tagOf (.q .kml (s% "coordinates"))) || (match d.text with
    | some s => sameStr s (s% " 1,2 3,4,5\n")
    | none => true)) &&
  (!decide (d.tag = tagOf (.q .gx (s% "Track"))) || ((childrenNamed d (.q .kml (s% "when"))).all (fun k => k.text.isSome) &&
    decide ((childrenNamed d (.q .kml (s% "when"))).length = (childrenNamed d (.q .gx (s% "coord"))).length) &&
    decide ((childrenNamed d (.q .gx (s% "angles"))).length ≤ (childrenNamed d (.q .gx (s% "coord"))).length))) &&
  (!decide (d.tag = tagOf (.q .gx (s% "coord"))) || (match d.text with
    | some s => decide ((splitWs s).length = 2 ∨ (splitWs s).length = 3) && (splitWs s).all digitsB
    | none => false)) &&
  !decide (d.tag ∈ [tagOf (.q .gx (s% "angles")), tagOf (.q .kml (s% "Lod")), tagOf (.q .atom (s% "link")), tagOf (.q .kml (s% "SimpleField")),
    tagOf (.q .kml (s% "Schema")), tagOf (.q .gx (s% "TimeStamp")), tagOf (.q .gx (s% "TimeSpan"))]) &&
  (!decide (d.tag = tagOf (.q .kml (s% "Document"))) || (childrenNamed d (.q .kml (s% "Schema"))).isEmpty) &&
  (!decide (d.tag = tagOf (.q .kml (s% "kml"))) || (childrenNamed d (.q .kml (s% "NetworkLinkControl"))).isEmpty)

theorem coords_case : CoordinatesText (s% " 1,2 3,4,5\n") := by
  refine .inr ⟨⟨s% " ", [(⟨s% "1", [([], s% "2")]⟩, s% " ")], ⟨s% "3", [([], s% "4"), ([], s% "5")]⟩, s% "\n"⟩, ?_, rfl, ?_⟩
  · unfold Spaced.Ok Blank TupleText.Ok
    decide +kernel
  · have key : ∀ t ∈ Spaced.tuples ⟨s% " ", [(⟨s% "1", [([], s% "2")]⟩, s% " ")], ⟨s% "3", [([], s% "4"), ([], s% "5")]⟩, s% "\n"⟩,
        (t.length = 2 ∨ t.length = 3) ∧ ∀ w ∈ t, digitsB w = true := by decide +kernel
    exact fun t ht => ⟨(key t ht).1, fun w hw => digitsB_sound ((key t ht).2 w hw)⟩

theorem ordinaryB_sound {d : Xml} (h : ordinaryB d = true) : OrdinaryNode d := by
  simp only [ordinaryB, Bool.and_eq_true, Bool.or_eq_true, Bool.not_eq_true', decide_eq_false_iff_not, List.isEmpty_iff, List.all_eq_true,
    decide_eq_true_eq, List.mem_cons, List.not_mem_nil, or_false, not_or] at h
  obtain ⟨⟨⟨⟨⟨h1, h2⟩, h3⟩, g1, g2, g3, g4, g5, g6, g7⟩, h5⟩, h6⟩ := h
  refine ⟨fun ht s hs => ?_, fun ht k hk => ?_, fun ht => ?_, fun ht => absurd ht g1, fun ht => ?_, fun ht => absurd ht g2,
    fun ht => absurd ht g3, fun ht => absurd ht g4, fun ht => absurd ht g5, ⟨g6, g7⟩, fun ht => .inl (h5.resolve_left fun h => h ht),
    fun ht => .inl (h6.resolve_left fun h => h ht)⟩
  · have h1 := h1.resolve_left fun h => h ht
    rw [hs] at h1
    rw [sameStr_iff.mp h1]
    exact coords_case
  · have := ((h2.resolve_left fun h => h ht).1.1 k hk)
    intro h0
    rw [h0] at this
    cases this
  · have h3 := h3.resolve_left fun h => h ht
    cases hs : d.text with
    | none => rw [hs] at h3; cases h3
    | some s =>
      rw [hs] at h3
      simp only [Bool.and_eq_true, decide_eq_true_eq, List.all_eq_true] at h3
      exact ⟨s, rfl, h3.1, fun w hw => digitsB_sound (h3.2 w hw)⟩
  · exact ⟨(h2.resolve_left fun h => h ht).1.2, (h2.resolve_left fun h => h ht).2⟩

/-- A document with blanks around values, a number in scientific notation, a time with a
fraction and a zone, a style and a track. -/
def ordinaryDoc : Xml := kNode (s% "kml") [] [kNode (s% "Document") [(s% "id", s% "d1")] [
  kLeaf (s% "visibility") (s% " true\n"),
  kNode (s% "Style") [] [kNode (s% "LineStyle") [] [kLeaf (s% "color") (s% "ff0000FF"), kLeaf (s% "width") (s% " +1.5E1 ")]],
  kNode (s% "Placemark") [(s% "id", s% "p1")] [
    kNode (s% "TimeStamp") [] [kLeaf (s% "when") (s% "2020-01-02T03:04:05.5+01:00")],
    .mk (gxNs ++ s% "Track") [] none [
      kLeaf (s% "when") (s% "2020-01-02"), kLeaf (s% "when") (s% "2020-01-02T03:04:05.5+01:00"),
      .leaf (gxNs ++ s% "coord") (s% "1 2"), .leaf (gxNs ++ s% "coord") (s% "3 4 5")]],
  kNode (s% "Placemark") [] [kNode (s% "LineString") [] [kLeaf (s% "coordinates") (s% " 1,2 3,4,5\n")]]]]

theorem ordinary_of {e : Xml} (hv : validB plainTextB 10 (.q .kml (s% "KmlType")) e = true) (hn : allNodes ordinaryB e = true) :
    Ordinary (.q .kml (s% "KmlType")) e :=
  ⟨validB_sound plainTextB_sound hv, fun _ hd => ordinaryB_sound (allNodes_sub hd hn)⟩

theorem ordinaryDoc_ordinary : Ordinary (.q .kml (s% "KmlType")) ordinaryDoc := ordinary_of (by decide +kernel) (by decide +kernel)

example : ∃ v : Val Cls XFix, fromElement fastkml true .KML none [] ordinaryDoc = .ok v ∧ Kept ordinaryDoc .KML (.q .kml (s% "KmlType")) v ∧
    ∀ o : Opts, ∃ e', ser fastkml o v = .ok e' ∧ (o.verbosity ≠ .verbose → truthy fastkml v = .ok true →
      e'.tag = ordinaryDoc.tag ∧ Valid lexOk (.q .kml (s% "KmlType")) e') :=
  C77_opened (by decide +kernel) (by decide +kernel) ordinaryDoc_ordinary

/-- The text of a document that meets the hypotheses of `C77_string`. -/
theorem C77_case {d : Xml} (hd : writableB d = true) {e : Xml} (he : resolve [] (Lib.indent false d) = e)
    (hr : e.tag = tagOf (elemName .KML)) (hv : validB plainTextB 10 (.q .kml (s% "KmlType")) e = true) (hn : allNodes ordinaryB e = true)
    (hg : allNodes legalNodeB e = true) (pp : Bool) :
    ∃ (v : Val Cls XFix) (t' : Str), fromString Lib.xmlLib true .KML none [] (Lib.print false d) = .ok v ∧
      Kept e .KML (.q .kml (s% "KmlType")) v ∧ toString Lib.xmlLib pp ⟨none, .normal⟩ v = .ok t' ∧
      ∀ strict, fromString Lib.xmlLib strict .KML none [] t' = .ok (prune v) := by
  have h1 := Lib.read_print false d (writableB_sound hd)
  rw [he] at h1
  exact C77_string Lib.xmlLib_faithful h1 (by decide +kernel) hr (ordinary_of hv hn) (legalDoc_of hg) pp

/-- The text of the document is opened, saved and opened again. -/
example (pp : Bool) : ∃ (v : Val Cls XFix) (t' : Str), fromString Lib.xmlLib true .KML none [] (Lib.print false ordinaryDoc) = .ok v ∧
    Kept (resolve [] (Lib.indent false ordinaryDoc)) .KML (.q .kml (s% "KmlType")) v ∧
    toString Lib.xmlLib pp ⟨none, .normal⟩ v = .ok t' ∧ ∀ strict, fromString Lib.xmlLib strict .KML none [] t' = .ok (prune v) :=
  C77_case (by decide +kernel) rfl (by decide +kernel) (by decide +kernel) (by decide +kernel) (by decide +kernel) pp

end Verif
