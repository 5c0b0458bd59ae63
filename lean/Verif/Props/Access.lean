import Verif.Access
import Verif.Lemmas.Slots
import Verif.Props.Empty
import Verif.Props.Find
import Verif.Props.Reading

/-!
# C49 – C52, C55: identifiers, icons, times, locations and extended data
-/

set_option linter.unusedSectionVars false
set_option linter.unusedSimpArgs false

namespace Verif

open Spec

variable {F : Type} [PyExt F]

/-! ## C49: identifiers -/

/-- The class has an `id` and a `target_id`; a `Schema` is different. -/
def HasIds (c : Cls) : Prop := ._BaseObject ∈ (fastkml.info c).mro ∧ c ≠ .Schema

instance (c : Cls) : Decidable (HasIds c) := inferInstanceAs (Decidable (_ ∧ _))

/-- The argument for an identifier: a text or `None`. -/
def IdArg (v : Val Cls F) (t : Str) : Prop := v = .str t ∨ (v = .none ∧ t = [])

/-- The item for an identifier. -/
def idItem (a node : Str) : Item Cls := ⟨[(s% ""), (s% "kml")], [.str], a, .attrText, .attrText, node, .none⟩

theorem ids_table (c : Cls) (hc : HasIds c) :
    (s% "id", Norm.orEmpty) ∈ (fastkml.info c).slots ∧ (s% "target_id", Norm.orEmpty) ∈ (fastkml.info c).slots ∧
    idItem (s% "id") (s% "id") ∈ fastkml.itemsOf c ∧ idItem (s% "target_id") (s% "targetId") ∈ fastkml.itemsOf c ∧
    (fastkml.info c).special ≠ .kml ∧
    (∀ it ∈ fastkml.itemsOf c, place it.get = .attr →
      (endsWith (s% "id") it.node = true → it.node = s% "id") ∧
      (endsWith (s% "targetId") it.node = true → it.node = s% "targetId")) := by
  have : ∀ c ∈ Cls.all, HasIds c →
      (s% "id", Norm.orEmpty) ∈ (fastkml.info c).slots ∧ (s% "target_id", Norm.orEmpty) ∈ (fastkml.info c).slots ∧
      idItem (s% "id") (s% "id") ∈ fastkml.itemsOf c ∧ idItem (s% "target_id") (s% "targetId") ∈ fastkml.itemsOf c ∧
      (fastkml.info c).special ≠ .kml ∧
      (∀ it ∈ fastkml.itemsOf c, place it.get = .attr →
        (endsWith (s% "id") it.node = true → it.node = s% "id") ∧
        (endsWith (s% "targetId") it.node = true → it.node = s% "targetId")) := by
    decide +kernel
  exact this c (Cls.mem_all c) hc

/-- **C49.** A new object has the given identifiers verbatim; `None` becomes the empty
text, so they are never `None`. -/
theorem C49_new {c : Cls} (hc : HasIds c) {ns : Option Str} {nss : NsMap} {kw : List (Str × Val Cls F)} {i t : Str}
    (hi : IdArg (kwGet (s% "id") kw) i) (ht : IdArg (kwGet (s% "target_id") kw) t) {v : Val Cls F}
    (h : init fastkml c ns nss kw = .ok v) : field (s% "id") v = .str i ∧ field (s% "target_id") v = .str t := by
  obtain ⟨h1, h2, _⟩ := ids_table c hc
  have key : ∀ {a : Str} {t : Str}, (a, Norm.orEmpty) ∈ (fastkml.info c).slots → IdArg (kwGet a kw) t →
      field a v = .str t := by
    intro a t ha hi
    obtain ⟨ns', as, w, rfl, hw, he⟩ := init_slot h (slots_nodup c) ha
    simp only [field]
    change attrOf a as = _
    rw [he]
    rcases hi with hi | ⟨hi, rfl⟩ <;> rw [hi] at hw
    · simp only [normalise, truthy, info, Info.plain] at hw
      cases t with
      | nil => cases hw; rfl
      | cons => cases hw; rfl
    · simp only [normalise, truthy, info, Info.plain] at hw
      cases hw; rfl
  exact ⟨key h1 hi, key h2 ht⟩

/-- A link with an id with whitespace and without target id. -/
def idLink : Val Cls Fix :=
  newObj .Link [(s% "id", .str (s% " a b ")), (s% "href", .str (s% "x.kml"))]

example : HasIds .Link ∧ IdArg (.str (s% " a b ") : Val Cls Fix) (s% " a b ") ∧ IdArg (.none : Val Cls Fix) [] ∧
    init fastkml .Link none [] [(s% "id", .str (s% " a b ")), (s% "href", .str (s% "x.kml"))] = .ok idLink :=
  ⟨by decide +kernel, Or.inl rfl, Or.inr ⟨rfl, rfl⟩, by decide +kernel⟩

/-- **C49.** Identifiers are written verbatim, as attributes without namespace, and not
at all if they are empty. -/
theorem C49_written {P : Pt F → Bool} {c : Cls} (hc : HasIds c) {ns : Str} {nss : NsMap} {as : List (Str × Val Cls F)}
    (ht : typed fastkml P (.obj c ns nss as) = true) {o : Opts} {e : Xml}
    (h : ser fastkml o (.obj c ns nss as) = .ok e) :
    (∀ i, attr (s% "id") as = .str i → e.get (s% "id") = if i = [] then none else some i) ∧
    (∀ t, attr (s% "target_id") as = .str t → e.get (s% "targetId") = if t = [] then none else some t) := by
  obtain ⟨_, _, h1, h2, _, _⟩ := ids_table c hc
  have key : ∀ {a node : Str} {t : Str}, idItem a node ∈ fastkml.itemsOf c → attr a as = .str t →
      e.get node = if t = [] then none else some t := by
    intro a node t hit ha
    have hw := (written ht h).attr _ hit (by simp [idItem, place])
    rw [(getattr_stored ((fastkml_writeOk c).item _ hit) (by simp [idItem, place]) o as).2] at hw
    have ha : attrOf a as = .str t := ha
    simp only [idItem, ha, attrText, place] at hw
    rw [hw]
    cases o.verbosity <;> rfl
  exact ⟨fun i hi => key h1 hi, fun t ht => key h2 ht⟩

/-- The link is written and read again. -/
example : typed fastkml anyPt idLink = true ∧ (match ser fastkml ⟨none, .terse⟩ idLink with
    | .ok e => decide (e.get (s% "id") = some (s% " a b ")) && decide (e.get (s% "targetId") = none)
    | _ => false) = true := by decide +kernel

/-- The first value that is given, or the empty text. -/
def firstGiven (a b : Option Str) : Str := ((given a).or (given b)).getD []

theorem id_read {strict : Bool} {e : Xml} {c : Cls} {ns : Str} {nss : NsMap} {ns' : Str} {nss' : NsMap}
    {as : List (Str × Val Cls F)} (h : parse fastkml strict e c ns nss = .ok (.obj c ns' nss' as)) {a node : Str}
    (hit : idItem a node ∈ fastkml.itemsOf c) (hc : HasIds c) (ha : a ∈ [s% "id", s% "target_id"])
    (h0 : dget [] (mergeNs nss) = none) :
    attr a as = .str (firstGiven (e.get node) (e.get (nsGet (mergeNs nss) (s% "kml") ++ node))) := by
  have h1 := C14_scalar strict e c ns nss c ns' nss' as h _ hit (by simp [idItem, scalar, place])
  have hid : ident c (idItem a node) = true := by
    simp only [List.mem_cons, List.not_mem_nil, or_false] at ha
    simp [ident, idItem, ha, hc.2]
  have he : nsGet (mergeNs nss) [] = [] := by simp [nsGet, h0]
  rw [hid] at h1
  simp only [idItem, firstValue, itemText, denotes, place, he, List.nil_append] at h1
  simp only [firstGiven, Xml.get]
  rw [h1]
  cases given (dget node e.attrs) with
  | some t => simp [stored]
  | none =>
    cases given (dget (nsGet (mergeNs nss) (s% "kml") ++ node) e.attrs) with
    | some t => simp [stored]
    | none => simp [stored]

/-- **C49.** Read identifiers are the values of the XML attributes, verbatim: those
without namespace, else those in the KML namespace, else the empty text. -/
theorem C49_read {strict : Bool} {e : Xml} {c : Cls} (hc : HasIds c) {ns : Str} {nss : NsMap} {ns' : Str} {nss' : NsMap}
    {as : List (Str × Val Cls F)} (h : parse fastkml strict e c ns nss = .ok (.obj c ns' nss' as))
    (h0 : dget [] (mergeNs nss) = none) :
    attr (s% "id") as = .str (firstGiven (e.get (s% "id")) (e.get (nsGet (mergeNs nss) (s% "kml") ++ s% "id"))) ∧
    attr (s% "target_id") as =
      .str (firstGiven (e.get (s% "targetId")) (e.get (nsGet (mergeNs nss) (s% "kml") ++ s% "targetId"))) := by
  obtain ⟨_, _, h1, h2, _, _⟩ := ids_table c hc
  exact ⟨id_read h h1 hc (by simp) h0, id_read h h2 hc (by simp) h0⟩

/-- An id in the KML namespace is read if there is none without namespace. -/
example : (match parse (F := Fix) fastkml true (.mk (kmlNs ++ s% "Link") [(kmlNs ++ s% "id", s% "x"), (s% "targetId", s% " ")]
      none []) .Link kmlNs [] with
    | .ok v => decide (field (s% "id") v = .str (s% "x")) && decide (field (s% "target_id") v = .str (s% " "))
    | _ => false) = true := by decide +kernel

theorem endsWith_append (p s : Str) : endsWith p (s ++ p) = true := by
  simp [endsWith]

/-- **C49.** Identifiers survive writing and reading verbatim. -/
theorem C49_cycle {P : Pt F → Bool} {c : Cls} (hc : HasIds c) {ns : Str} {nss : NsMap} {as : List (Str × Val Cls F)}
    (ht : typed fastkml P (.obj c ns nss as) = true) {o : Opts} {e : Xml}
    (h : ser fastkml o (.obj c ns nss as) = .ok e) {strict : Bool} {ns' : Str} {nss' : NsMap} {ns'' : Str} {nss'' : NsMap}
    {as' : List (Str × Val Cls F)} (h' : parse fastkml strict e c ns' nss' = .ok (.obj c ns'' nss'' as'))
    (h0 : dget [] (mergeNs nss') = none) {i t : Str} (hi : attr (s% "id") as = .str i)
    (hg : attr (s% "target_id") as = .str t) :
    attr (s% "id") as' = .str i ∧ attr (s% "target_id") as' = .str t := by
  obtain ⟨r1, r2⟩ := C49_read hc h' h0
  obtain ⟨w1, w2⟩ := C49_written hc ht h
  obtain ⟨_, _, h1, h2, hk, hn⟩ := ids_table c hc
  rw [r1, r2, w1 i hi, w2 t hg]
  have key : ∀ {node i : Str} {p : Str}, (∀ it ∈ fastkml.itemsOf c, place it.get = .attr →
      endsWith node it.node = true → it.node = node) → e.get node = (if i = [] then none else some i) →
      firstGiven (if i = [] then none else some i) (e.get (p ++ node)) = i := by
    intro node i p hend hw
    by_cases hi : i = []
    · subst hi
      simp only [if_true] at hw ⊢
      cases hp : e.get (p ++ node) with
      | none => rfl
      | some x =>
        exfalso
        have hm := dget_mem hp
        rcases (written ht h).noAttr _ hm with ⟨it, hit, hpl, he⟩ | ⟨hs, _⟩
        · simp only at he
          have := hend it hit hpl (he ▸ endsWith_append node p)
          rw [he, this, hw] at hp
          cases hp
        · exact hk hs
    · simp [firstGiven, given, hi]
  exact ⟨by rw [key (fun it hit hpl => (hn it hit hpl).1) (w1 i hi)],
    by rw [key (fun it hit hpl => (hn it hit hpl).2) (w2 t hg)]⟩

example : writeRead idLink = .ok idLink ∧ dget [] (mergeNs []) = none := by decide +kernel

/-- **C49.** A schema is not made without an id, -/
theorem C49_schema_error {ns : Option Str} {nss : NsMap} {kw : List (Str × Val Cls F)}
    (h : kwGet (s% "id") kw = .none ∨ kwGet (s% "id") kw = .str []) :
    init fastkml .Schema ns nss kw = .error .schemaError := by
  have hk : (fastkml.info .Schema).kwargs = true := by decide +kernel
  have hs : (fastkml.info .Schema).special = .schema := by decide +kernel
  simp only [init, construct, hk, hs, Bool.true_eq_false, and_false, if_false, specialInit]
  rcases h with h | h <;> simp [h]

/-- **C49.** so a made or read schema was given an id that is not empty.  It is stored
without surrounding whitespace, -/
theorem C49_schema {ns : Option Str} {nss : NsMap} {kw : List (Str × Val Cls F)} {v : Val Cls F}
    (h : init fastkml .Schema ns nss kw = .ok v) :
    ∃ i, kwGet (s% "id") kw = .str i ∧ i ≠ [] ∧ field (s% "id") v = stored false (some (.str i)) := by
  obtain ⟨ns', as, w, rfl, hw, he⟩ := init_slot h (slots_nodup .Schema)
    (by decide +kernel : (s% "id", Norm.clean) ∈ (fastkml.info .Schema).slots)
  have hs : (fastkml.info .Schema).special = .schema := by decide +kernel
  obtain ⟨ex, sp, sl, hex, hsp, hsl, _⟩ := construct_ok h
  rw [hs] at hsp
  simp only [specialInit] at hsp
  cases hk : kwGet (s% "id") kw <;> rw [hk] at hsp <;> try (cases hsp; done)
  rename_i i
  refine ⟨i, rfl, ?_, ?_⟩
  · rintro rfl; cases hsp
  · simp only [field]
    change attrOf _ as = _
    rw [he]
    rw [hk] at hw
    simp only [normalise, cleanString] at hw
    simp only [stored, trimmed, Bool.false_eq_true, if_false]
    by_cases hb : strip i = []
    · simp [hb] at hw ⊢; exact hw.symm
    · have hi : i ≠ [] := by rintro rfl; exact hb rfl
      simp [hb, hi] at hw ⊢; exact hw.symm

example : (match init (F := Fix) fastkml .Schema none [] [(s% "id", .str (s% " a b"))] with
    | .ok v => decide (field (s% "id") v = .str (s% "a b"))
    | _ => false) = true := by decide +kernel

/-- **C49.** so that a blank id becomes `None`: here the identifier is not verbatim. -/
theorem C49_schema_blank :
    ∃ v, init fastkml .Schema none [] [(s% "id", .str (s% "  "))] = .ok v ∧ field (s% "id") v = (.none : Val Cls F) :=
  ⟨_, rfl, by rfl⟩

/-! ## C50: icons -/

theorem iconStyle_slot {ns : Option Str} {nss : NsMap} {kw : List (Str × Val Cls F)} {v : Val Cls F}
    (h : init fastkml .IconStyle ns nss kw = .ok v) : field (s% "icon") v = kwGet (s% "icon") kw := by
  obtain ⟨ns', as, w, rfl, hw, he⟩ := init_slot h (slots_nodup .IconStyle)
    (by decide +kernel : (s% "icon", Norm.raw) ∈ (fastkml.info .IconStyle).slots)
  cases hw
  exact he

theorem trimmed_trimmed {s : Option Str} {t : Str} (h : trimmed s = some t) : trimmed (some t) = some t := by
  cases s with
  | none => cases h
  | some s =>
    simp only [trimmed] at h
    by_cases hb : strip s = []
    · simp [hb] at h
    · simp only [hb, if_false, Option.some.injEq] at h
      subst h
      simp [trimmed, strip_idem, hb]

/-- **C50.** If `icon_href` is not given or blank, or the icon is not empty, the icon is
the one that is given.  Otherwise it is a new one with the address, without surrounding
whitespace. -/
theorem C50_icon {ns : Option Str} {nss : NsMap} {href : Option Str} {kw : List (Str × Val Cls F)} {v : Val Cls F}
    (h : initIconStyle ns nss href kw = .ok v) :
    (trimmed href = none ∨ truthy fastkml (kwGet (s% "icon") kw) = .ok true → field (s% "icon") v = kwGet (s% "icon") kw) ∧
    (∀ t, trimmed href = some t → truthy fastkml (kwGet (s% "icon") kw) = .ok false →
      init fastkml .Icon ns nss [(s% "href", .str t)] = .ok (field (s% "icon") v) ∧
      field (s% "href") (field (s% "icon") v) = .str t) := by
  simp only [initIconStyle, cleanString_trimmed] at h
  cases ht : trimmed href with
  | none =>
    rw [ht] at h
    exact ⟨fun _ => iconStyle_slot h, fun t h => by cases h⟩
  | some t =>
    rw [ht] at h
    simp only at h
    cases hb : truthy fastkml (kwGet (s% "icon") kw) with
    | error e => rw [hb] at h; cases h
    | ok b =>
      rw [hb] at h
      cases b with
      | true => exact ⟨fun _ => iconStyle_slot h, fun t _ h => by cases h⟩
      | false =>
        simp only at h
        refine ⟨fun hor => by (rcases hor with h | h <;> cases h), fun t' ht' _ => ?_⟩
        cases ht'
        cases hi : init (F := F) fastkml .Icon ns nss [(s% "href", .str t)] with
        | error e => rw [hi] at h; cases h
        | ok i =>
          rw [hi] at h
          simp only at h
          rw [iconStyle_slot h, kwGet_dset]
          simp only [if_true]
          refine ⟨trivial, ?_⟩
          obtain ⟨ns', as, w, rfl, hw, he⟩ := init_slot hi (slots_nodup .Icon)
            (by decide +kernel : (s% "href", Norm.clean) ∈ (fastkml.info .Icon).slots)
          simp only [field]
          change attrOf _ as = _
          rw [he]
          simp only [kwGet, dget, if_true, Option.getD_some, normalise, cleanString_trimmed, trimmed_trimmed ht,
            Except.ok.injEq] at hw
          exact hw.symm

/-- **C50.** `icon_href` is the address of the icon, or `None` if the icon is missing or
empty. -/
theorem C50_href {ns : Option Str} {nss : NsMap} {href : Option Str} {kw : List (Str × Val Cls F)} {v : Val Cls F}
    (h : initIconStyle ns nss href kw = .ok v) :
    (∀ t, trimmed href = some t → truthy fastkml (kwGet (s% "icon") kw) = .ok false → iconHref v = .ok (.str t)) ∧
    (truthy fastkml (kwGet (s% "icon") kw) = .ok true →
      iconHref v = .ok (field (s% "href") (kwGet (s% "icon") kw))) ∧
    (trimmed href = none → truthy fastkml (kwGet (s% "icon") kw) = .ok false → iconHref v = .ok .none) := by
  obtain ⟨h1, h2⟩ := C50_icon h
  refine ⟨fun t ht hb => ?_, fun hb => ?_, fun ht hb => ?_⟩
  · obtain ⟨hi, hh⟩ := h2 t ht hb
    have : truthy fastkml (field (s% "icon") v) = .ok true := by
      obtain ⟨ns', as, w, he, -, hw⟩ := init_slot hi (slots_nodup .Icon)
        (by decide +kernel : (s% "href", Norm.clean) ∈ (fastkml.info .Icon).slots)
      rw [he] at hh ⊢
      have hh : attrOf (s% "href") as = .str t := hh
      have hne : t ≠ [] := by
        rintro rfl
        have := trimmed_trimmed ht
        simp [trimmed, strip] at this
      have hr : (fastkml.info .Icon).bool = .allTruthy [s% "href"] := by decide +kernel
      simp only [truthy, info, infoStep, hr, boolStep, List.map_cons, List.map_nil, viewOf_infoAttrs, hh, Info.plain]
      cases t with
      | nil => exact absurd rfl hne
      | cons => rfl
    simp [iconHref, this, hh]
  · simp [iconHref, h1 (Or.inr hb), hb]
  · simp [iconHref, h1 (Or.inl ht), hb]

/-- Both arguments; only the address; an empty icon and the address; a blank address. -/
example : let own := newObj .Icon [(s% "href", .str (s% "own.png"))]
    let hrefOf (i : Val Cls Fix) (h : Str) : Except Err (Val Cls Fix) :=
      match initIconStyle none [] (some h) [(s% "icon", i), (s% "color", .str (s% "ff"))] with
      | .ok v => iconHref v
      | .error e => .error e
    hrefOf own (s% "a.png") = .ok (.str (s% "own.png")) ∧
    hrefOf .none (s% " a.png ") = .ok (.str (s% "a.png")) ∧
    hrefOf (newObj .Icon []) (s% "a.png") = .ok (.str (s% "a.png")) ∧
    hrefOf .none (s% "  ") = .ok .none := by decide +kernel

/-! ## C51: times -/

/-- The class takes `times`: features do, and views do as a further argument. -/
def TakesTimes (c : Cls) : Prop := ._Feature ∈ (fastkml.info c).mro ∨ ._AbstractView ∈ (fastkml.info c).mro

instance (c : Cls) : Decidable (TakesTimes c) := inferInstanceAs (Decidable (_ ∨ _))

theorem dget_filter_key {α : Type} {k : Str} {known : List Str} (hk : k ∉ known) {d : List (Str × α)} :
    dget k (d.filter fun p => decide (p.1 ∉ known)) = dget k d := by
  induction d with
  | nil => rfl
  | cons p d ih =>
    by_cases hp : p.1 ∈ known
    · have : p.1 ≠ k := by rintro rfl; exact hk hp
      simp [List.filter_cons, hp, dget, this, ih]
      simp only [decide_not] at ih
      exact ih
    · by_cases he : p.1 = k
      · simp [List.filter_cons, hp, dget, he, hk]
      · simp [List.filter_cons, hp, dget, he]
        simp only [decide_not] at ih
        exact ih

theorem times_attr {c : Cls} (hc : TakesTimes c) {ns : Option Str} {nss : NsMap} {kw : List (Str × Val Cls F)} {v : Val Cls F}
    (h : init fastkml c ns nss kw = .ok v) :
    field (s% "times") v = kwGet (s% "times") kw := by
  have tab : ∀ c ∈ Cls.all, TakesTimes c → (s% "times", Norm.raw) ∈ (fastkml.info c).slots ∨
      (s% "times" ∉ specialArgs (fastkml.info c).special ++ (fastkml.info c).slots.map Prod.fst ∧
        (fastkml.info c).special = .none) := by decide +kernel
  rcases tab c (Cls.mem_all c) hc with ht | ⟨ht, hs⟩
  · obtain ⟨ns', as, w, rfl, hw, he⟩ := init_slot h (slots_nodup c) ht
    cases hw
    exact he
  · obtain ⟨ex, sp, sl, hex, hsp, hsl, rfl⟩ := construct_ok h
    rw [hs] at hsp
    cases hsp
    simp only [field, List.append_nil, dget_append]
    have hn : dget (s% "times") sl = none :=
      dget_eq_none.mpr (by rw [fillSlots_keys hsl]; exact fun hm => ht (List.mem_append_right _ hm))
    rw [hex, dget_filter_key ht, hn]
    simp [kwGet]

/-- **C51.** An object that is made with a `TimeStamp` has its time as `time_stamp`, and
no `begin` and `end`. -/
theorem C51_stamp {c : Cls} (hc : TakesTimes c) {ns : Option Str} {nss : NsMap} {kw : List (Str × Val Cls F)} {v : Val Cls F}
    (h : init fastkml c ns nss kw = .ok v)
    {ns' : Option Str} {nss' : NsMap} {kw' : List (Str × Val Cls F)}
    (ht : init fastkml .TimeStamp ns' nss' kw' = .ok (kwGet (s% "times") kw)) :
    timeStamp v = kwGet (s% "timestamp") kw' ∧ timeBegin v = .none ∧ timeEnd v = .none := by
  obtain ⟨n, as, w, he, hw, ha⟩ := init_slot ht (slots_nodup .TimeStamp)
    (by decide +kernel : (s% "timestamp", Norm.raw) ∈ (fastkml.info .TimeStamp).slots)
  cases hw
  have hv := times_attr hc h
  rw [he] at hv
  refine ⟨?_, by simp [timeBegin, hv, isExactly], by simp [timeEnd, hv, isExactly]⟩
  simp only [timeStamp, hv, isExactly, decide_true, if_true]
  exact ha

/-- **C51.** An object that is made with a `TimeSpan` has its ends as `begin` and `end`,
and no `time_stamp`. -/
theorem C51_span {c : Cls} (hc : TakesTimes c) {ns : Option Str} {nss : NsMap} {kw : List (Str × Val Cls F)} {v : Val Cls F}
    (h : init fastkml c ns nss kw = .ok v)
    {ns' : Option Str} {nss' : NsMap} {kw' : List (Str × Val Cls F)}
    (ht : init fastkml .TimeSpan ns' nss' kw' = .ok (kwGet (s% "times") kw)) :
    timeStamp v = .none ∧ timeBegin v = kwGet (s% "begin") kw' ∧ timeEnd v = kwGet (s% "end") kw' := by
  obtain ⟨n, as, w, he, hw, ha⟩ := init_slot ht (slots_nodup .TimeSpan)
    (by decide +kernel : (s% "begin", Norm.raw) ∈ (fastkml.info .TimeSpan).slots)
  obtain ⟨n', as', w', he', hw', ha'⟩ := init_slot ht (slots_nodup .TimeSpan)
    (by decide +kernel : (s% "end", Norm.raw) ∈ (fastkml.info .TimeSpan).slots)
  cases hw
  cases hw'
  have hv := times_attr hc h
  rw [he] at hv he'
  injection he' with _ _ _ he'
  subst he'
  refine ⟨by simp [timeStamp, hv, isExactly], ?_, ?_⟩
  · simp only [timeBegin, hv, isExactly, decide_true, if_true]
    exact ha
  · simp only [timeEnd, hv, isExactly, decide_true, if_true]
    exact ha'

/-- **C51.** An object that is made without `times` has none of them. -/
theorem C51_none {c : Cls} (hc : TakesTimes c) {ns : Option Str} {nss : NsMap} {kw : List (Str × Val Cls F)} {v : Val Cls F}
    (h : init fastkml c ns nss kw = .ok v)
    (ht : kwGet (s% "times") kw = .none) : timeStamp v = .none ∧ timeBegin v = .none ∧ timeEnd v = .none := by
  simp [timeStamp, timeBegin, timeEnd, times_attr hc h, ht, isExactly]

/-- A folder and a camera with times. -/
example : let stamp := newObj .TimeStamp [(s% "timestamp", .dt sampleWhen)]
    let span := newObj .TimeSpan [(s% "end", .dt sampleWhen)]
    TakesTimes .Folder ∧ TakesTimes .Camera ∧ TakesTimes .GroundOverlay ∧
    timeStamp (newObj .Folder [(s% "times", stamp)]) = .dt sampleWhen ∧
    timeStamp (newObj .Camera [(s% "times", stamp)]) = .dt sampleWhen ∧
    timeEnd (newObj .Camera [(s% "times", span)]) = .dt sampleWhen ∧
    timeBegin (newObj .GroundOverlay [(s% "times", span)]) = .none := by decide +kernel

/-! ## C52: locations -/

/-- The value is a number: a float, or an integer, that is converted. -/
def IsNum (v : Val Cls F) (x : F) : Prop := v = .float x ∨ ∃ i, v = .int i ∧ x = PyExt.ofInt i

theorem numOf_num {v : Val Cls F} {x : F} (h : IsNum v x) : numOf v = .ok (some x) := by
  rcases h with rfl | ⟨i, rfl, rfl⟩ <;> rfl

/-- **C52.** A location with longitude and latitude is a point, with these coordinates
and the altitude, if there is one. -/
theorem C52_point {ns : Str} {nss : NsMap} {as : List (Str × Val Cls F)} {lon lat : F}
    (hlon : IsNum (attr (s% "longitude") as) lon) (hlat : IsNum (attr (s% "latitude") as) lat) :
    (attr (s% "altitude") as = .none →
      geometry fastkml (.obj .Location ns nss as) = .ok (some (.point [lon, lat]))) ∧
    (∀ alt, IsNum (attr (s% "altitude") as) alt →
      geometry fastkml (.obj .Location ns nss as) = .ok (some (.point [lon, lat, alt]))) := by
  have hgk : (fastkml.info .Location).geom = .location := by decide +kernel
  have hv : ∀ a, viewOf a (infoAttrs fastkml as) = ⟨attr a as, info fastkml (attr a as), infoElems fastkml (attr a as)⟩ :=
    fun a => viewOf_infoAttrs fastkml a as
  rw [geometry_obj, hgk]
  simp only [geomStep, hv, numOf_num hlon, numOf_num hlat]
  exact ⟨fun h => by rw [h]; rfl, fun alt h => by rw [numOf_num h]⟩

example : IsNum (.int 7 : Val Cls Fix) (PyExt.ofInt 7) ∧ IsNum (.float (fx 8) : Val Cls Fix) (fx 8) :=
  ⟨Or.inr ⟨7, rfl, rfl⟩, Or.inl rfl⟩

/-- **C52.** Without longitude or without latitude there is no geometry. -/
theorem C52_none {P : Pt F → Bool} {ns : Str} {nss : NsMap} {as : List (Str × Val Cls F)}
    (ht : typed fastkml P (.obj .Location ns nss as) = true)
    (h : attr (s% "longitude") as = .none ∨ attr (s% "latitude") as = .none) :
    geometry fastkml (.obj .Location ns nss as) = .ok none := by
  have hgk : (fastkml.info .Location).geom = .location := by decide +kernel
  have hv : ∀ a, viewOf a (infoAttrs fastkml as) = ⟨attr a as, info fastkml (attr a as), infoElems fastkml (attr a as)⟩ :=
    fun a => viewOf_infoAttrs fastkml a as
  have hn : ∀ a, hasKind .Location a [.subFloat] = true → ∃ o, numOf (attr a as) = .ok o := by
    intro a ha
    obtain ⟨it, hg, hk⟩ := hasKind_ok ht ha
    simp only [List.mem_cons, List.not_mem_nil, or_false] at hg
    simp only [kindOk, hg] at hk
    cases hv : attr a as <;> rw [hv] at hk <;> first | exact ⟨_, rfl⟩ | cases hk
  obtain ⟨x, hx⟩ := hn (s% "longitude") (by decide +kernel)
  obtain ⟨y, hy⟩ := hn (s% "latitude") (by decide +kernel)
  obtain ⟨z, hz⟩ := hn (s% "altitude") (by decide +kernel)
  rw [geometry_obj, hgk]
  simp only [geomStep, hv, hx, hy, hz]
  rcases h with h | h
  · rw [h] at hx; cases hx; rfl
  · rw [h] at hy; cases hy; cases x <;> rfl

example : typed fastkml anyPt (newObj .Location [(s% "longitude", .float (fx 3))]) = true := by decide +kernel

theorem location_cases {P : Pt F → Bool} {ns : Str} {nss : NsMap} {as : List (Str × Val Cls F)}
    (ht : typed fastkml P (.obj .Location ns nss as) = true) :
    truthy fastkml (.obj .Location ns nss as) = .ok true ∨
      (truthy fastkml (.obj .Location ns nss as) = .ok false ∧
        geometry fastkml (.obj .Location ns nss as) = .ok none) := by
  have hr : (fastkml.info .Location).bool = .allNotNone [s% "latitude", s% "longitude"] := by decide +kernel
  have he : ∃ b, truthy fastkml (.obj .Location ns nss as) = .ok b := by
    simp only [truthy, info, infoStep, hr, boolStep]; exact ⟨_, rfl⟩
  obtain ⟨b, hb⟩ := he
  cases b with
  | true => exact Or.inl hb
  | false =>
    refine Or.inr ⟨hb, C52_none ht ?_⟩
    have := (C53_bool ht hb)
    simp only [Bool.false_eq_true, false_iff, Filled, IsSet, not_and] at this
    by_cases h : attr (s% "longitude") as = .none
    · exact Or.inl h
    · right
      by_cases h' : attr (s% "latitude") as = .none
      · exact h'
      · exact absurd h (this h')

set_option maxRecDepth 4000 in
/-- **C52.** The geometry of a model is that of its location; without location there is
none. -/
theorem C52_model {P : Pt F → Bool} {ns : Str} {nss : NsMap} {as : List (Str × Val Cls F)}
    (ht : typed fastkml P (.obj .Model ns nss as) = true) :
    (attr (s% "location") as = .none → geometry fastkml (.obj .Model ns nss as) = .ok none) ∧
    (∀ c n m l, attr (s% "location") as = .obj c n m l →
      geometry fastkml (.obj .Model ns nss as) = geometry fastkml (.obj c n m l)) := by
  have hgk : (fastkml.info .Model).geom = .model := by decide +kernel
  have hv : ∀ a, viewOf a (infoAttrs fastkml as) = ⟨attr a as, info fastkml (attr a as), infoElems fastkml (attr a as)⟩ :=
    fun a => viewOf_infoAttrs fastkml a as
  rw [geometry_obj, hgk]
  simp only [geomStep, hv]
  refine ⟨fun h => by rw [h]; rfl, fun c n m l h => ?_⟩
  rw [h]
  have hc : c = .Location := by
    have hi : hasItem fastkml .Model (s% "location") .xmlSub (fun d => decide (d = .Location)) = true := by
      decide +kernel
    rcases sub_cases ht hi with hn | ⟨d, n', m', l', hd, hq⟩
    · have := h.symm.trans hn; cases this
    · have := h.symm.trans hd
      injection this with h1
      rw [h1]; exact of_decide_eq_true hq
  subst hc
  have hl : typed fastkml P (.obj .Location n m l) = true := by
    have := typed_attrOf ht (s% "location")
    rw [show attrOf (s% "location") as = _ from h] at this
    exact this
  rcases location_cases hl with h1 | ⟨h1, h2⟩
  · simp only [truthy] at h1
    rw [h1]; rfl
  · simp only [truthy] at h1
    rw [h1, h2]

/-- A model at a location, and one without. -/
example : let loc := newObj .Location [(s% "longitude", .int 3), (s% "latitude", .float (fx 3))]
    typed fastkml anyPt (newObj .Model [(s% "location", loc)]) = true ∧
    typed fastkml anyPt (newObj .Model []) = true := by decide +kernel

/-! ## C55: extended data -/

/-- **C55.** The elements of extended data are those of the given elements that are not
empty, in order; it is empty itself if there is none of them. -/
theorem C55_elements {ns : Option Str} {nss : NsMap} {kw : List (Str × Val Cls F)} {l : List (Val Cls F)}
    (hl : kwGet (s% "elements") kw = .list l) {v : Val Cls F} (h : init fastkml .ExtendedData ns nss kw = .ok v) :
    field (s% "elements") v = .list (l.filter (nonEmpty fastkml)) ∧
    truthy fastkml v = .ok (l.any (nonEmpty fastkml)) := by
  obtain ⟨ns', as, w, rfl, hw, he⟩ := init_slot h (slots_nodup .ExtendedData)
    (by decide +kernel : (s% "elements", Norm.listTruthy) ∈ (fastkml.info .ExtendedData).slots)
  rw [hl] at hw
  simp only [normalise] at hw
  cases hk : keepTruthy fastkml l with
  | error e => rw [hk] at hw; cases hw
  | ok r =>
    rw [hk] at hw
    cases hw
    have hf : r = l.filter (nonEmpty fastkml) := keepTruthy_filter hk
    subst hf
    refine ⟨he, ?_⟩
    have hr : (fastkml.info .ExtendedData).bool = .allTruthy [s% "elements"] := by decide +kernel
    simp only [truthy, info, infoStep, hr, boolStep, List.map_cons, List.map_nil, viewOf_infoAttrs, he, Info.plain]
    simp only [allE, List.any_eq_not_all_not]
    cases hl' : l.filter (nonEmpty fastkml) with
    | nil =>
      have : l.all (fun w => !nonEmpty fastkml w) = true := by
        rw [List.all_eq_true]
        intro w hw
        have := List.filter_eq_nil_iff.mp hl' w hw
        simpa using this
      simp [this]
    | cons w r =>
      have hw : w ∈ l.filter (nonEmpty fastkml) := by rw [hl']; exact List.mem_cons_self
      have hw := List.mem_filter.mp hw
      have : l.all (fun w => !nonEmpty fastkml w) = false := by
        rw [List.all_eq_false]
        exact ⟨w, hw.1, by simp [hw.2]⟩
      simp [this]

/-- Of three elements one is empty. -/
example : let d (v : Str) := newObj .Data [(s% "name", .str (s% "n")), (s% "value", .str v)]
    (init fastkml .ExtendedData none [] [(s% "elements", .list [d (s% "1"), d [], d (s% "2")])] =
      .ok (newObj .ExtendedData [(s% "elements", .list [d (s% "1"), d (s% "2")])])) ∧
    truthy fastkml (newObj .ExtendedData [(s% "elements", .list [d []])]) = .ok false := by decide +kernel

end Verif
