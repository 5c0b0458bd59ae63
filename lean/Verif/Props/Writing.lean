import Verif.Lemmas.Fastkml
import Verif.Lemmas.Precision
import Verif.Props.Registry
import Verif.ExtInst
import Verif.Render

/-!
# C03, C04, C12, C15, C16, C54: what is written
-/

set_option linter.unusedSectionVars false
set_option linter.unusedSimpArgs false

namespace Verif

open Spec

variable {F : Type} [PyExt F]

/-! ## C54: writing succeeds -/

/-- **C54.** Writing a typed object raises only `KMLWriteError` and `TypeError`. -/
theorem C54_kinds {c : Cls} {ns : Str} {nss : NsMap} {attrs : List (Str × Val Cls F)}
    (ht : typed fastkml anyPt (.obj c ns nss attrs) = true) (o : Opts) {x : Err}
    (hx : ser fastkml o (.obj c ns nss attrs) = .error x) : x = .typeError ∨ x = .writeError := by
  rcases ser_error fastkml_boolOk fastkml_writeOk _ ht ⟨_, _, _, _, rfl⟩ x hx with h | h
  · exact Or.inl h.1
  · exact Or.inr h.1

/-- **C54.** Writing an object whose attributes have the documented types and
whose coordinate tuples have two or three components succeeds. -/
theorem C54_succeeds {c : Cls} {ns : Str} {nss : NsMap} {attrs : List (Str × Val Cls F)}
    (ht : typed fastkml dim23 (.obj c ns nss attrs) = true) (o : Opts) :
    ∃ e, ser fastkml o (.obj c ns nss attrs) = .ok e := by
  cases h : ser fastkml o (.obj c ns nss attrs) with
  | ok e => exact ⟨e, rfl⟩
  | error x =>
    exfalso
    rcases ser_error fastkml_boolOk fastkml_writeOk _ ht ⟨_, _, _, _, rfl⟩ x h with ⟨_, h⟩ | ⟨_, p, h1, h2, h3⟩
    · exact not_typeErr_dim23 h
    · simp only [dim23, decide_eq_true_eq] at h1
      rcases h1 with h1 | h1
      · exact h2 h1
      · exact h3 h1

/-! ## Examples -/

/-- `n / 10^6`. -/
def fx (n : Int) : Fix := ⟨some n⟩

/-- A point. -/
def samplePoint : Val Cls Fix := .obj .Point kmlNs' [] [(s% "extrude", .bool true),
  (s% "altitude_mode", .enum .altitudeMode (s% "relativeToSeaFloor")), (s% "id", .str []), (s% "target_id", .str []),
  (s% "kml_coordinates", .obj .Coordinates kmlNs' [] [(s% "coords", .coords [[fx 1234567, fx (-2500000)]])])]
where kmlNs' : Str := s% "{http://www.opengis.net/kml/2.2}"

/-- A folder with a placemark, an empty placemark and an extended data without content. -/
def sampleFolder : Val Cls Fix := .obj .Folder samplePoint.kmlNs' [] [
  (s% "name", .str (s% "f")), (s% "visibility", .bool true), (s% "isopen", .bool true), (s% "id", .str (s% "i1")),
  (s% "target_id", .str []),
  (s% "features", .list [
    .obj .Placemark samplePoint.kmlNs' [] [(s% "name", .str (s% "a b")), (s% "id", .str []), (s% "target_id", .str []),
      (s% "styles", .list []),
      (s% "kml_geometry", samplePoint)]]),
  (s% "styles", .list []),
  (s% "extended_data", .obj .ExtendedData samplePoint.kmlNs' [] [(s% "elements", .list [])])]

example : typed fastkml dim23 sampleFolder = true := by decide +kernel

example : rendered (ser fastkml ⟨none, .normal⟩ sampleFolder) = some
    (s% "<Folder id=i1><name>f</><visibility>1</><open>1</><Placemark><name>a b</><Point><extrude>1</><altitudeMode>relativeToSeaFloor</><coordinates>1.234567,-2.500000</></></></>") := by
  decide +kernel

/-- A coordinates list that starts with a tuple of one component. -/
example : (match ser fastkml ⟨none, .normal⟩
      (.obj .Coordinates [] [] [(s% "coords", .coords [[fx 1]])] : Val Cls Fix) with
    | .error .writeError => true
    | _ => false) = true := by decide +kernel

/-! ## The element of an object -/

/-- What is written for an object of any class: see `Spec.Written`. -/
theorem written {P : Pt F → Bool} {c : Cls} {ns : Str} {nss : NsMap} {attrs : List (Str × Val Cls F)}
    (ht : typed fastkml P (.obj c ns nss attrs) = true) {o : Opts} {e : Xml}
    (h : ser fastkml o (.obj c ns nss attrs) = .ok e) : Written fastkml o c ns nss attrs e :=
  ser_written (fastkml_writeOk c) ht h

/-! ## C12: the order of the children -/

/-- **C12.** The children of a written element are the blocks of the registered
attributes, one after the other: those of the root ancestor first, in the order of
registration.  The block of a list has the members in the order of the list
(`Spec.Block`). -/
theorem C12_order {P : Pt F → Bool} {c : Cls} {ns : Str} {nss : NsMap} {attrs : List (Str × Val Cls F)}
    (ht : typed fastkml P (.obj c ns nss attrs) = true) {o : Opts} {e : Xml}
    (h : ser fastkml o (.obj c ns nss attrs) = .ok e) :
    ∃ blocks, All2 (fun it ks => Block fastkml o ns nss it (value fastkml c attrs it.attr) ks)
        ((fastkml.info c).mro.reverse.flatMap (registeredFor registrations)) blocks ∧
      e.kids = blocks.flatten := by
  rw [← C13_fastkml]
  exact (written ht h).kids

theorem propOf_congr {C : Type} [DecidableEq C] {sp : Special} {attrs attrs' : List (Str × Val C F)}
    (h : ∀ a, attr a attrs = attr a attrs') (a : Str) : propOf sp attrs a = propOf sp attrs' a := by
  have h : ∀ a, attrOf a attrs = attrOf a attrs' := h
  simp only [propOf, itemsOf', h]

/-- **C12.** The order in which attributes were assigned, and attributes that are
`None`, do not matter. -/
theorem C12_assignment {C : Type} [DecidableEq C] (L : Lib C) (o : Opts) (c : C) (ns : Str) (nss : NsMap)
    {attrs attrs' : List (Str × Val C F)} (h : ∀ a, attr a attrs = attr a attrs') :
    ser L o (.obj c ns nss attrs) = ser L o (.obj c ns nss attrs') := by
  have hg : ∀ a, getattr (L.info c).special (serAttrs L o attrs) a = getattr (L.info c).special (serAttrs L o attrs') a := by
    intro a
    rw [getattr_serAttrs, getattr_serAttrs, propOf_congr h]
  have hall : ∀ items el, setAll ns nss o (L.info c).special (serAttrs L o attrs) items el =
      setAll ns nss o (L.info c).special (serAttrs L o attrs') items el := by
    intro items
    induction items with
    | nil => intro el; rfl
    | cons it items ih => intro el; simp only [setAll, hg, ih]
  simp only [ser_obj, serStep, hg, hall]

/-- The sample with two attributes swapped. -/
example : ser fastkml ⟨none, .normal⟩ samplePoint = ser fastkml ⟨none, .normal⟩ (.obj .Point samplePoint.kmlNs' [] [
    (s% "kml_coordinates", .obj .Coordinates samplePoint.kmlNs' [] [(s% "coords", .coords [[fx 1234567, fx (-2500000)]])]),
    (s% "extrude", .bool true), (s% "tessellate", .none),
    (s% "altitude_mode", .enum .altitudeMode (s% "relativeToSeaFloor")), (s% "id", .str []),
    (s% "target_id", .str [])]) := by
  refine C12_assignment _ _ _ _ _ fun a => ?_
  simp only [attr, dget]
  repeat' split
  all_goals first | rfl | (rename_i h; subst h; simp_all) | simp_all

/-! ## C15: a child is written iff it is truthy -/

theorem all2_split {α β : Type} {R : α → β → Prop} {l : List α} {m : List β} (h : All2 R l m) {a : α} (ha : a ∈ l) :
    ∃ m1 b m2, m = m1 ++ b :: m2 ∧ R a b := by
  induction h with
  | nil => cases ha
  | @cons x y l m h1 _ ih =>
    rcases List.mem_cons.mp ha with rfl | ha
    · exact ⟨[], y, m, rfl, h1⟩
    · obtain ⟨m1, b, m2, rfl, hb⟩ := ih ha
      exact ⟨y :: m1, b, m2, rfl, hb⟩

/-- **C15.** A nested object is written, at its place, iff `bool(child)` is `True`. -/
theorem C15_object {P : Pt F → Bool} {c : Cls} {ns : Str} {nss : NsMap} {attrs : List (Str × Val Cls F)}
    (ht : typed fastkml P (.obj c ns nss attrs) = true) {o : Opts} {e : Xml}
    (h : ser fastkml o (.obj c ns nss attrs) = .ok e) {it : Item Cls} (hit : it ∈ fastkml.itemsOf c)
    (hg : it.get = .xmlSub) :
    ∃ pre ks post, e.kids = pre ++ ks ++ post ∧
      ((truthy fastkml (attr it.attr attrs) = .ok false ∧ ks = []) ∨
       (truthy fastkml (attr it.attr attrs) = .ok true ∧ ∃ x, ser fastkml o (attr it.attr attrs) = .ok x ∧ ks = [x])) := by
  obtain ⟨blocks, h1, h2⟩ := (written ht h).kids
  obtain ⟨m1, b, m2, rfl, hb⟩ := all2_split h1 hit
  refine ⟨m1.flatten, b, m2.flatten, by simp [h2], ?_⟩
  rw [(getattr_stored ((fastkml_writeOk c).item it hit) (by simp [hg, place]) o attrs).2] at hb
  simp only [Block, hg, place] at hb
  rcases hb with hb | ⟨x, hx1, hx2, hx3⟩
  · exact Or.inl hb
  · exact Or.inr ⟨hx1, x, hx2, hx3⟩

/-- **C15.** Of a list of nested objects exactly the members `w` with `bool(w)` are
written, in order. -/
theorem C15_list {P : Pt F → Bool} {c : Cls} {ns : Str} {nss : NsMap} {attrs : List (Str × Val Cls F)}
    (ht : typed fastkml P (.obj c ns nss attrs) = true) {o : Opts} {e : Xml}
    (h : ser fastkml o (.obj c ns nss attrs) = .ok e) {it : Item Cls} (hit : it ∈ fastkml.itemsOf c)
    (hg : it.get = .xmlSubList) :
    ∃ l pre ks post, attr it.attr attrs = .list l ∧ e.kids = pre ++ ks ++ post ∧
      (∀ w ∈ l, ∃ b, truthy fastkml w = .ok b) ∧
      All2 (fun w x => ser fastkml o w = .ok x) (l.filter (nonEmpty fastkml)) ks := by
  obtain ⟨blocks, h1, h2⟩ := (written ht h).kids
  obtain ⟨m1, b, m2, rfl, hb⟩ := all2_split h1 hit
  rw [(getattr_stored ((fastkml_writeOk c).item it hit) (by simp [hg, place]) o attrs).2] at hb
  simp only [Block, hg, place] at hb
  obtain ⟨l, hl, hb1, hb2⟩ := hb
  exact ⟨l, m1.flatten, b, m2.flatten, hl, by simp [h2], hb1, hb2⟩

/-! ## C03, C04: verbosity -/

theorem versus {P : Pt F → Bool} {c : Cls} {ns : Str} {nss : NsMap} {attrs : List (Str × Val Cls F)}
    (ht : typed fastkml P (.obj c ns nss attrs) = true) {p : Option Nat} {vb : Verbosity} {e e' : Xml}
    (h : ser fastkml ⟨p, vb⟩ (.obj c ns nss attrs) = .ok e)
    (h' : ser fastkml ⟨p, .normal⟩ (.obj c ns nss attrs) = .ok e')
    {instead : Item Cls → Val Cls F → Option (Val Cls F)}
    (hi : ∀ it v, shown vb it.dflt.val v = (instead it v).getD v) :
    Versus fastkml p vb instead c ns nss attrs e e' := by
  have w := written ht h
  have w' := written ht h'
  refine ⟨by rw [w.tag, w'.tag], ?_, ?_, ?_, ?_⟩
  · obtain ⟨bs, h1, h2⟩ := w.kids
    obtain ⟨bs', h1', h2'⟩ := w'.kids
    have key : ∀ items bs bs',
        All2 (fun it ks => Block fastkml ⟨p, vb⟩ ns nss it (value fastkml c attrs it.attr) ks) items bs →
        All2 (fun it ks => Block fastkml ⟨p, .normal⟩ ns nss it (value fastkml c attrs it.attr) ks) items bs' →
        All2 (fun it b => BlockVs fastkml p vb instead ns nss it (value fastkml c attrs it.attr) b) items (bs.zip bs') ∧
          bs = (bs.zip bs').map Prod.fst ∧ bs' = (bs.zip bs').map Prod.snd := by
      intro items bs bs' h
      induction h generalizing bs' with
      | nil => intro h; cases h; exact ⟨.nil, rfl, rfl⟩
      | @cons it ks items bs hb _ ih =>
        intro h
        cases h with
        | @cons _ ks' _ bs' hb' h' =>
          obtain ⟨i1, i2, i3⟩ := ih _ h'
          refine ⟨.cons ?_ i1, by simpa using i2, by simpa using i3⟩
          unfold Block at hb hb'
          unfold BlockVs
          cases hp : place it.get <;> rw [hp] at hb hb' <;> simp only at hb hb' ⊢
          · rw [hb, hb']
          · rw [hb, hb', hi]
            cases instead it (value fastkml c attrs it.attr) <;> rfl
          · rw [hb, hb']
          · rw [hb, hb']
          · rcases hb with ⟨hb1, hb2⟩ | ⟨x, hb1, hb2, hb3⟩ <;> rcases hb' with ⟨hb1', hb2'⟩ | ⟨x', hb1', hb2', hb3'⟩
            · exact Or.inl ⟨hb1, by rw [hb2, hb2']⟩
            · rw [hb1] at hb1'; cases hb1'
            · rw [hb1] at hb1'; cases hb1'
            · exact Or.inr ⟨x, x', hb1, hb2, hb2', by rw [hb3, hb3']⟩
          · obtain ⟨l, hl, _, hb2⟩ := hb
            obtain ⟨l', hl', _, hb2'⟩ := hb'
            rw [hl] at hl'; cases hl'
            exact ⟨l, hl, hb2, hb2'⟩
    obtain ⟨k1, k2, k3⟩ := key _ _ _ h1 h1'
    exact ⟨bs.zip bs', k1, by rw [h2, ← k2], by rw [h2', ← k3]⟩
  · intro it hit hp
    rw [w.attr it hit hp, w'.attr it hit hp]
    simp only [attrText, hp]
    rw [hi]
    cases instead it (value fastkml c attrs it.attr) <;> rfl
  · intro it hit hg
    rw [w.text it hit (by rw [hg]; rfl), w'.text it hit (by rw [hg]; rfl)]
    simp only [elemText, hg]
    rw [hi]
    cases instead it (value fastkml c attrs it.attr) <;> rfl
  · intro hall
    by_cases hc : ∃ it ∈ fastkml.itemsOf c, place it.get = .text
    · obtain ⟨it, hit, hp⟩ := hc
      rw [w.text it hit hp, w'.text it hit hp]
      have : it.get = .coordinates := by
        have := hall it hit
        revert hp this
        cases it.get <;> simp [place]
      simp only [elemText, this]
    · have hc : ∀ it ∈ fastkml.itemsOf c, place it.get ≠ .text := fun it hit hp => hc ⟨it, hit, hp⟩
      rw [w.noText hc, w'.noText hc]

/-- **C03.** Terse output differs from normal output only in that scalars equal to
their default are not written. -/
theorem C03_terse {P : Pt F → Bool} {c : Cls} {ns : Str} {nss : NsMap} {attrs : List (Str × Val Cls F)}
    (ht : typed fastkml P (.obj c ns nss attrs) = true) {p : Option Nat} {e e' : Xml}
    (h : ser fastkml ⟨p, .terse⟩ (.obj c ns nss attrs) = .ok e)
    (h' : ser fastkml ⟨p, .normal⟩ (.obj c ns nss attrs) = .ok e') :
    Versus fastkml p .terse terseInstead c ns nss attrs e e' :=
  versus ht h h' fun it v => by
    unfold shown terseInstead
    simp only
    split <;> rfl

/-- **C03.** In terse output a scalar is omitted iff it is `None`, the empty text,
or equal to its default. -/
theorem C03_omitted {P : Pt F → Bool} {c : Cls} {it : Item Cls} (hit : it ∈ fastkml.itemsOf c)
    (hs : scalar it.get = true) {v : Val Cls F} (hv : kindOk P it v = true) :
    scalarText (shown .terse it.dflt.val v) = none ↔ v = .none ∨ v = .str [] ∨ scalarEq v it.dflt.val = true := by
  have hd := ((fastkml_writeOk c).item it hit).dflt
  have hne : scalarText v = none ↔ v = .none ∨ v = .str [] := by
    cases hg : it.get <;> simp only [hg, scalar, place, decide_eq_true_eq, reduceCtorEq, Bool.false_eq_true] at hs <;>
      simp only [kindOk, hg] at hv <;>
      cases v <;> simp only [Bool.false_eq_true] at hv <;> simp [scalarText]
  unfold shown
  simp only
  split
  · rename_i h; simp [h, scalarText]
  · rename_i h; rw [hne]; simp [h]

/-- **C04.** Verbose output differs from normal output only in that the default is
written in place of `None`. -/
theorem C04_verbose {P : Pt F → Bool} {c : Cls} {ns : Str} {nss : NsMap} {attrs : List (Str × Val Cls F)}
    (ht : typed fastkml P (.obj c ns nss attrs) = true) {p : Option Nat} {e e' : Xml}
    (h : ser fastkml ⟨p, .verbose⟩ (.obj c ns nss attrs) = .ok e)
    (h' : ser fastkml ⟨p, .normal⟩ (.obj c ns nss attrs) = .ok e') :
    Versus fastkml p .verbose verboseInstead c ns nss attrs e e' :=
  versus ht h h' fun it v => by
    unfold shown verboseInstead
    simp only
    split <;> rfl

/-- The sample, terse and verbose. -/
example : rendered (ser fastkml ⟨none, .terse⟩ sampleFolder) = some
    (s% "<Folder id=i1><name>f</><open>1</><Placemark><name>a b</><Point><extrude>1</><altitudeMode>relativeToSeaFloor</><coordinates>1.234567,-2.500000</></></></>") := by
  decide +kernel

example : rendered (ser fastkml ⟨none, .verbose⟩ sampleFolder) = some
    (s% "<Folder id=i1><name>f</><visibility>1</><open>1</><Placemark><name>a b</><visibility>1</><open>0</><Point><extrude>1</><altitudeMode>relativeToSeaFloor</><coordinates>1.234567,-2.500000</></></></>") := by
  decide +kernel

/-! ## C16: precision -/

theorem fastkml_precOk (c : Cls) : precOk fastkml c = true := by
  have : ∀ c ∈ Cls.all, precOk fastkml c = true := by decide +kernel
  exact this c (Cls.mem_all c)

/-- **C16.** The precision changes only the numbers in `coordinates`, `gx:coord` and
`gx:angles` elements: everything else, and the separators between the numbers,
stay the same; and it has no influence on whether writing succeeds. -/
theorem C16_precision [LawfulExt F] (p q : Option Nat) (vb : Verbosity) (v : Val Cls F) :
    (ser fastkml ⟨p, vb⟩ v).map mask = (ser fastkml ⟨q, vb⟩ v).map mask := by
  have := ser_same fastkml_precOk p q vb v
  revert this
  cases ser fastkml ⟨p, vb⟩ v <;> cases ser fastkml ⟨q, vb⟩ v <;> simp [SameE, Except.map]

/-- **C16.** No other element is masked: the only written tags that end in
`coordinates`, `coord` or `angles` are these. -/
theorem C16_tags (c : Cls) : (isCoordTag (fastkml.info c).tag = true → (fastkml.info c).tag = s% "coordinates") ∧
    ∀ it ∈ fastkml.itemsOf c, isCoordTag it.node = true →
      it.node = s% "coordinates" ∨ it.node = s% "coord" ∨ it.node = s% "angles" := by
  have : ∀ c ∈ Cls.all, (isCoordTag (fastkml.info c).tag = true → (fastkml.info c).tag = s% "coordinates") ∧
    ∀ it ∈ fastkml.itemsOf c, isCoordTag it.node = true →
      it.node = s% "coordinates" ∨ it.node = s% "coord" ∨ it.node = s% "angles" := by decide +kernel
  exact this c (Cls.mem_all c)

example : rendered (ser fastkml ⟨some 2, .normal⟩ samplePoint) = some
    (s% "<Point><extrude>1</><altitudeMode>relativeToSeaFloor</><coordinates>1.23,-2.50</></>") ∧
  rendered ((ser fastkml ⟨some 2, .normal⟩ samplePoint).map mask) = some
    (s% "<Point><extrude>1</><altitudeMode>relativeToSeaFloor</><coordinates>,</></>") := by
  decide +kernel

end Verif
