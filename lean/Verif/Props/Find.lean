import Verif.Lemmas.Find
import Verif.Lemmas.Inside
import Verif.Props.Cycle

/-!
# C35, C36, C37: searching
-/

set_option linter.unusedSectionVars false
set_option linter.unusedSimpArgs false

namespace Verif

open Spec

variable {F : Type}

/-! ## C35: `find_all` and `find` -/

/-- **C35.** `find_all` yields exactly the objects that can be reached through public
attributes and list elements and that have the type and the attribute values. -/
theorem C35_exact (P : Look F) (q : Query F) (n x : Node F) :
    x ∈ findAll P q n ↔ Reach n x ∧ Fits P q x := mem_findAll P q x n

/-- **C35.** `find_all` yields them once per occurrence, in the order of a preorder
traversal, so that parents come before their descendants: there is a list of
positions, strictly increasing in that order, which contains exactly the positions of
fitting objects, and the results are the objects at these positions. -/
theorem C35_order (P : Look F) (q : Query F) (n : Node F) :
    ∃ ps : List (List Nat), ps.Pairwise Before ∧
      (∀ p, p ∈ ps ↔ ∃ x, at_ getAllAttrs n p = some x ∧ Fits P q x) ∧
      findAll P q n = ps.filterMap (at_ getAllAttrs n) := by
  obtain ⟨ps, h1, h2, h3⟩ := findUpTo_positions (q.test P) n
  refine ⟨ps, h1, ?_, h3.symm⟩
  intro p
  rw [h2]
  exact ⟨fun ⟨x, h, h'⟩ => ⟨x, h, (test_iff _ _ _).mp h'⟩,
    fun ⟨x, h, h'⟩ => ⟨x, h, (test_iff _ _ _).mpr h'⟩⟩

/-- The children that make up a position are what `Has` says, … -/
theorem C35_children (n x : Node F) : x ∈ getAllAttrs n ↔ Has n x := mem_getAllAttrs

/-- … and the elements of a list attribute are consecutive children in the order of
the list. -/
theorem C35_lists (c : Cls) (ns : Str) (nss : NsMap) (attrs : List (Str × Val Cls F)) (a : Str)
    (l : List (Val Cls F)) (h : (a, .list l) ∈ attrs) (hp : a.head? ≠ some '_') :
    ∃ pre post, getAllAttrs (.val (.obj c ns nss attrs)) = pre ++ l.map .val ++ post := by
  have key : ∀ (d : List (Str × List (Node F))) (b : Str) (v : List (Node F)), (b, v) ∈ d →
      isPublic b = true →
      ∃ pre post, (d.filter fun p => isPublic p.1).flatMap (·.2) = pre ++ v ++ post := by
    intro d b v hd hb
    have hm : (b, v) ∈ d.filter fun p => isPublic p.1 := List.mem_filter.mpr ⟨hd, hb⟩
    obtain ⟨pre, post, he⟩ := List.append_of_mem hm
    refine ⟨pre.flatMap (·.2), post.flatMap (·.2), ?_⟩
    rw [he]
    simp
  refine key _ a (l.map .val) ?_ ((isPublic_iff a).mpr hp)
  have hm : (a, l.map Node.val) ∈ attrs.map fun p => (p.1, spread p.2) :=
    List.mem_map.mpr ⟨_, h, rfl⟩
  unfold dictOrder
  by_cases hb : a ∈ beforeBase c
  · exact List.mem_append_left _ (List.mem_filter.mpr ⟨hm, by simpa using hb⟩)
  · exact List.mem_append_right _ (List.mem_cons_of_mem _ (List.mem_cons_of_mem _
      (List.mem_filter.mpr ⟨hm, by simpa using hb⟩)))

/-- **C35.** `find` returns the first result of `find_all`, and `None` iff no reachable
object fits. -/
theorem C35_find (P : Look F) (q : Query F) (n : Node F) :
    (find P q n = none ↔ ∀ x, Reach n x → ¬ Fits P q x) ∧
    ∀ x, find P q n = some x → ∃ r, findAll P q n = x :: r := by
  constructor
  · unfold find
    rw [List.head?_eq_none_iff]
    constructor
    · intro h x hr hf
      have := (mem_findAll P q x n).mpr ⟨hr, hf⟩
      rw [h] at this
      cases this
    · intro h
      cases hl : findAll P q n with
      | nil => rfl
      | cons x r =>
        have := (mem_findAll P q x n).mp (by rw [hl]; simp)
        exact absurd this.2 (h x this.1)
  · intro x h
    unfold find at h
    cases hl : findAll P q n with
    | nil => rw [hl] at h; cases h
    | cons y r =>
      rw [hl] at h
      cases h
      exact ⟨r, rfl⟩

/-- **C35.** What `find` returns is at the first position, in preorder, of all the
fitting objects. -/
theorem C35_first (P : Look F) (q : Query F) (n x : Node F) (h : find P q n = some x) :
    ∃ p, at_ getAllAttrs n p = some x ∧ Fits P q x ∧
      ∀ p' y, at_ getAllAttrs n p' = some y → Fits P q y → p' = p ∨ Before p p' := by
  obtain ⟨ps, h1, h2, h3⟩ := C35_order P q n
  have hx := (C35_find P q n).2 x h
  obtain ⟨r, hr⟩ := hx
  rw [hr] at h3
  cases ps with
  | nil => cases h3
  | cons p ps =>
    obtain ⟨y, hy, hf⟩ := (h2 p).mp (by simp)
    simp only [List.filterMap_cons, hy] at h3
    cases h3
    refine ⟨p, hy, hf, ?_⟩
    intro p' z hz hfz
    have hm := (h2 p').mpr ⟨z, hz, hfz⟩
    rcases List.mem_cons.mp hm with rfl | hm
    · exact Or.inl rfl
    · exact Or.inr ((List.pairwise_cons.mp h1).1 _ hm)

/-! ## C36: styles by url -/

/-- The part of a url behind the first `#`, `none` if there is none. -/
def Spec.afterHash : Str → Option Str
  | [] => none
  | c :: r => if c = '#' then some r else afterHash r

/-- `==` compares strings as strings, and a string is not equal to a value of another
type. -/
def Spec.EqStr (P : Look F) : Prop :=
  (∀ s t, P.eq (.str s) (.str t) = decide (s = t)) ∧
  ∀ v t, P.eq v (.str t) = true → ∃ s, v = .str s

/-- `x` is a `Style` or `StyleMap` object with the id. -/
def Spec.StyleWithId (i : Str) (x : Node F) : Prop :=
  ∃ c ns nss attrs, x = .val (.obj c ns nss attrs) ∧ (c = .Style ∨ c = .StyleMap) ∧
    dget (s% "id") attrs = some (.str i)

/-- The only classes derived from `Style` or `StyleMap` are these themselves. -/
theorem style_classes (c : Cls) : (∃ d ∈ [Cls.Style, .StyleMap], d ∈ (fastkml.info c).mro) ↔
    c = .Style ∨ c = .StyleMap := by
  have : ∀ c ∈ Cls.all, (∃ d ∈ [Cls.Style, .StyleMap], d ∈ (fastkml.info c).mro) ↔
    c = .Style ∨ c = .StyleMap := by decide +kernel
  exact this c (Cls.mem_all c)

theorem fits_style {P : Look F} (hP : EqStr P) (i : Str) (x : Node F)
    (hid : ∀ c ns nss attrs, x = .val (.obj c ns nss attrs) → dget (s% "id") attrs ≠ none) :
    Fits P ⟨some [.Style, .StyleMap], [(s% "id", .str i)]⟩ x ↔ StyleWithId i x := by
  constructor
  · rintro ⟨h1, h2⟩
    obtain ⟨c, ns, nss, attrs, rfl, hd⟩ := h1 _ rfl
    obtain ⟨w, hw, he⟩ := h2 (s% "id") (.str i) (by simp)
    refine ⟨c, ns, nss, attrs, rfl, (style_classes c).mp hd, ?_⟩
    simp only [Look.getattr] at hw
    rw [if_neg (by decide)] at hw
    cases hg : dget (s% "id") attrs with
    | none => exact absurd hg (hid _ _ _ _ rfl)
    | some v =>
      simp only [hg] at hw
      cases hw
      obtain ⟨s, rfl⟩ := hP.2 _ _ he
      rw [hP.1] at he
      simp only [decide_eq_true_eq] at he
      rw [he]
  · rintro ⟨c, ns, nss, attrs, rfl, hc, hg⟩
    refine ⟨?_, ?_⟩
    · rintro cs hcs
      cases hcs
      exact ⟨c, ns, nss, attrs, rfl, (style_classes c).mpr hc⟩
    · intro k v hk
      simp only [List.mem_singleton, Prod.mk.injEq] at hk
      obtain ⟨rfl, rfl⟩ := hk
      refine ⟨.str i, ?_, by rw [hP.1]; simp⟩
      simp only [Look.getattr]
      rw [if_neg (by decide)]
      simp only [hg]

/-- Every reachable style object has an `id` (all constructors set it). -/
def Spec.StylesHaveId (n : Node F) : Prop :=
  ∀ c ns nss attrs, Reach n (.val (.obj c ns nss attrs)) → (c = .Style ∨ c = .StyleMap) →
    dget (s% "id") attrs ≠ none

theorem fits_style' {P : Look F} (hP : EqStr P) (i : Str) (n x : Node F) (hn : StylesHaveId n)
    (hr : Reach n x) :
    Fits P ⟨some [.Style, .StyleMap], [(s% "id", .str i)]⟩ x ↔ StyleWithId i x := by
  constructor
  · intro h
    obtain ⟨c, ns, nss, attrs, rfl, hd⟩ := h.1 _ rfl
    have := hn c ns nss attrs hr ((style_classes c).mp hd)
    refine (fits_style hP i _ ?_).mp h
    rintro c' ns' nss' attrs' he
    cases he
    exact this
  · rintro ⟨c, ns, nss, attrs, rfl, hc, hg⟩
    refine (fits_style hP i _ ?_).mpr ⟨c, ns, nss, attrs, rfl, hc, hg⟩
    rintro c' ns' nss' attrs' he
    cases he
    rw [hg]
    simp

/-- **C36.** `get_style_by_url(url)` returns a `Style` or `StyleMap` that can be reached
from the document and whose id is the fragment of the url, … -/
theorem C36_found (P : Look F) (hP : EqStr P) (doc : Val Cls F) (hd : StylesHaveId (.val doc))
    (url : Str) (x : Node F) (h : getStyleByUrl P doc url = some x) :
    Reach (.val doc) x ∧ StyleWithId (urlFragment url) x := by
  obtain ⟨r, hr⟩ := (C35_find P _ _).2 x h
  obtain ⟨h1, h2⟩ := (C35_exact P _ _ x).mp (by rw [hr]; exact List.mem_cons_self)
  exact ⟨h1, (fits_style' hP _ _ _ hd h1).mp h2⟩

/-- … `None` iff there is none, … -/
theorem C36_none (P : Look F) (hP : EqStr P) (doc : Val Cls F) (hd : StylesHaveId (.val doc))
    (url : Str) : getStyleByUrl P doc url = none ↔
      ∀ x, Reach (.val doc) x → ¬ StyleWithId (urlFragment url) x := by
  unfold getStyleByUrl
  refine ((C35_find P _ _).1).trans ?_
  constructor
  · intro h x hr hs
    exact h x hr ((fits_style' hP _ _ _ hd hr).mpr hs)
  · intro h x hr hf
    exact h x hr ((fits_style' hP _ _ _ hd hr).mp hf)

/-- … and the first one in traversal order. -/
theorem C36_first (P : Look F) (hP : EqStr P) (doc : Val Cls F) (hd : StylesHaveId (.val doc))
    (url : Str) (x : Node F) (h : getStyleByUrl P doc url = some x) :
    ∃ p, at_ getAllAttrs (.val doc) p = some x ∧
      ∀ p' y, at_ getAllAttrs (.val doc) p' = some y → StyleWithId (urlFragment url) y →
        p' = p ∨ Before p p' := by
  obtain ⟨p, hp, _, hf⟩ := C35_first P _ _ x h
  refine ⟨p, hp, ?_⟩
  intro p' y hy hs
  have hr : ∀ (p : List Nat) (n y : Node F), at_ getAllAttrs n p = some y → Reach n y := by
    intro p
    induction p with
    | nil => intro n y h; cases h; exact .refl _
    | cons i p ih =>
      intro n y h
      simp only [at_] at h
      cases hk : (getAllAttrs n)[i]? with
      | none => rw [hk] at h; cases h
      | some z =>
        rw [hk] at h
        exact .step (mem_getAllAttrs.mp (List.mem_of_getElem? hk)) (ih z y h)
  exact hf p' y hy ((fits_style' hP _ _ _ hd (hr _ _ _ hy)).mpr hs)

/-- What can be reached is in the value. -/
theorem reach_inside {n : Node F} {c : Cls} {ns : Str} {nss : NsMap} {as : List (Str × Val Cls F)}
    (h : Reach n (.val (.obj c ns nss as))) : ∃ v, n = .val v ∧ Inside (.obj c ns nss as) v := by
  generalize hx : Node.val (Val.obj c ns nss as) = x at h
  induction h with
  | refl y => exact ⟨_, hx.symm, .self⟩
  | step hxy _ ih =>
    obtain ⟨v, rfl, hi⟩ := ih hx
    cases hxy with
    | attr ha _ _ => exact ⟨_, rfl, .attr ha hi⟩
    | elem ha _ hm => exact ⟨_, rfl, .attr ha (.member hm hi)⟩
    | float _ _ _ => cases hi
    | time _ _ _ => cases hi
    | pfx _ => cases hi
    | rowTime _ => cases hi
    | rowNoAngle _ => cases hi
    | heading => cases hi
    | tilt => cases hi
    | roll => cases hi

/-- The attributes that the constructor sets are set. -/
theorem construct_slots [PyExt F] {c : Cls} {ns : Str} {nss : NsMap} {kw : List (Str × Val Cls F)}
    {nss' : NsMap} {as : List (Str × Val Cls F)}
    (h : construct fastkml c ns nss kw = .ok (.obj c ns nss' as)) {a : Str} {n : Norm}
    (ha : (a, n) ∈ (fastkml.info c).slots) : dget a as ≠ none := by
  simp only [construct] at h
  split at h
  · cases h
  · split at h
    · cases h
    · split at h
      · cases h
      · rename_i sl hsl
        simp only [Except.ok.injEq, Val.obj.injEq, true_and] at h
        obtain ⟨_, rfl⟩ := h
        have hk : a ∈ sl.map Prod.fst := by
          rw [fillSlots_keys hsl]
          exact List.mem_map.mpr ⟨_, ha, rfl⟩
        intro hd
        have : a ∉ (_ ++ sl).map Prod.fst := dget_eq_none.mp hd
        exact this (by rw [List.map_append]; exact List.mem_append_right _ hk)

/-- The condition `StylesHaveId` holds for everything that is read from an element. -/
theorem C36_read [PyExt F] (strict : Bool) (e : Xml) (c : Cls) (ns : Str) (nss : NsMap) (v : Val Cls F)
    (h : parse fastkml strict e c ns nss = .ok v) : StylesHaveId (.val v) := by
  intro c' ns' nss' as hr hc
  obtain ⟨w, hw, hi⟩ := reach_inside hr
  cases hw
  have hslot : ∃ n, (s% "id", n) ∈ (fastkml.info c').slots := by
    rcases hc with rfl | rfl <;> exact ⟨.orEmpty, by decide +kernel⟩
  obtain ⟨n, hn⟩ := hslot
  have hp : ∃ d ns0 nss0, parse fastkml strict d c' ns0 nss0 = .ok (.obj c' ns' nss' as) := by
    rcases parse_inside e h hi with he | ⟨k, _, d, _, _, _, hp⟩
    · obtain ⟨_, as', he'⟩ := parse_typed fastkml_readOk h
      rw [he'] at he
      cases he
      rw [he'] at h
      exact ⟨e, _, _, h⟩
    · exact ⟨d, _, _, hp⟩
  obtain ⟨d, ns0, nss0, hp⟩ := hp
  obtain ⟨t, a, x, ks⟩ := d
  rw [parse_eq] at hp
  simp only [parseStep] at hp
  split at hp
  · cases hp
  · obtain ⟨as', hs⟩ := construct_shape hp
    cases hs
    exact construct_slots hp hn

theorem afterHash_drop (s : Str) : (s.dropWhile fun c => decide (c ≠ '#')).drop 1 =
    (afterHash s).getD [] := by
  induction s with
  | nil => rfl
  | cons c r ih =>
    by_cases h : c = '#'
    · simp [List.dropWhile, afterHash, h]
    · rw [List.dropWhile_cons_of_pos (by simpa using h), ih]
      simp only [afterHash, if_neg h]

/-- **C36.** For a url without tabs and line breaks the fragment is what follows the first
`#`; nothing before that matters. -/
theorem C36_fragment (url : Str) (h : ∀ c ∈ url, c ≠ '\t' ∧ c ≠ '\r' ∧ c ≠ '\n') :
    urlFragment url = (afterHash url).getD [] := by
  unfold urlFragment
  rw [← afterHash_drop]
  have : url.filter (fun c => decide (c ∉ ['\t', '\r', '\n'])) = url := by
    rw [List.filter_eq_self]
    intro c hc
    have := h c hc
    simp [this]
  rw [this]

/-- **C36.** Two urls that agree behind the first `#` are resolved alike. -/
theorem C36_only_fragment (P : Look F) (doc : Val Cls F) (a b f : Str)
    (ha : '#' ∉ a) (hb : '#' ∉ b) :
    getStyleByUrl P doc (a ++ '#' :: f) = getStyleByUrl P doc (b ++ '#' :: f) := by
  have key : ∀ a : Str, '#' ∉ a → urlFragment (a ++ '#' :: f) =
      f.filter (fun c => decide (c ∉ ['\t', '\r', '\n'])) := by
    intro a ha
    unfold urlFragment
    rw [afterHash_drop, List.filter_append]
    have hf : ('#' :: f).filter (fun c => decide (c ∉ ['\t', '\r', '\n'])) =
        '#' :: f.filter (fun c => decide (c ∉ ['\t', '\r', '\n'])) := by
      rw [List.filter_cons]
      simp
    rw [hf]
    have : ∀ (s t : Str), '#' ∉ s → afterHash (s ++ '#' :: t) = some t := by
      intro s t hs
      induction s with
      | nil => simp [afterHash]
      | cons c r ih =>
        simp only [List.mem_cons, not_or] at hs
        simp only [List.cons_append, afterHash]
        rw [if_neg (fun h => hs.1 h.symm)]
        exact ih hs.2
    rw [this _ _ (fun h => ha ((List.mem_filter.mp h).1))]
    rfl
  unfold getStyleByUrl
  rw [key a ha, key b hb]

/-- A url without `#` asks for the id `""`, which every style without an id has: it
is resolved to the first such style instead of `None`. -/
theorem C36_no_hash (url : Str) (h : '#' ∉ url) : urlFragment url = [] := by
  unfold urlFragment
  rw [afterHash_drop]
  have : ∀ s : Str, '#' ∉ s → afterHash s = none := by
    intro s hs
    induction s with
    | nil => rfl
    | cons c r ih =>
      simp only [List.mem_cons, not_or] at hs
      simp only [afterHash]
      rw [if_neg (fun h => hs.1 h.symm)]
      exact ih hs.2
  rw [this _ (fun hm => h ((List.mem_filter.mp hm).1))]
  rfl

/-! ## C37: the styles of a style map -/

/-- The stored `key` of a pair is the given one. -/
def Spec.HasKey (key : Str) (p : Val Cls F) : Prop :=
  p.stored (s% "key") = some (.enum .pairKey key)

/-- A list of pairs: objects with `key` and `style`. -/
def Spec.ArePairs (l : List (Val Cls F)) : Prop :=
  ∀ p ∈ l, (∃ k, p.stored (s% "key") = some k) ∧ ∃ w, p.stored (s% "style") = some w

theorem firstStyle_spec (key : Str) (l : List (Val Cls F)) (hl : ArePairs l) :
    (∃ pre p post, l = pre ++ p :: post ∧ (∀ q ∈ pre, ¬ HasKey key q) ∧ HasKey key p ∧
      firstStyle key l = p.stored (s% "style")) ∨
    (∀ q ∈ l, ¬ HasKey key q) ∧ firstStyle key l = some .none := by
  induction l with
  | nil => exact Or.inr ⟨fun q h => (by cases h), rfl⟩
  | cons p r ih =>
    obtain ⟨⟨k, hk⟩, _⟩ := hl p (by simp)
    by_cases hkey : HasKey key p
    · left
      refine ⟨[], p, r, rfl, fun q h => (by cases h), hkey, ?_⟩
      simp only [firstStyle, show p.stored (s% "key") = _ from hkey, if_true]
    · have hstep : firstStyle key (p :: r) = firstStyle key r := by
        simp only [firstStyle, hk]
        cases k <;> try rfl
        rename_i e v
        cases e <;> try rfl
        simp only
        rw [if_neg]
        intro h
        subst h
        exact hkey hk
      rcases ih (fun q hq => hl q (by simp [hq])) with ⟨pre, x, post, he, h1, h2, h3⟩ | ⟨h1, h2⟩
      · left
        refine ⟨p :: pre, x, post, by rw [he]; rfl, ?_, h2, by rw [hstep, h3]⟩
        intro q hq
        rcases List.mem_cons.mp hq with rfl | hq
        · exact hkey
        · exact h1 q hq
      · right
        refine ⟨?_, by rw [hstep, h2]⟩
        intro q hq
        rcases List.mem_cons.mp hq with rfl | hq
        · exact hkey
        · exact h1 q hq

/-- **C37.** `normal` is the style of the first pair with the key `normal`, and `None` if
there is no such pair. -/
theorem C37_normal (m : Val Cls F) (l : List (Val Cls F)) (hm : m.stored (s% "pairs") = some (.list l))
    (hl : ArePairs l) :
    (∃ pre p post, l = pre ++ p :: post ∧ (∀ q ∈ pre, ¬ HasKey (s% "normal") q) ∧
      HasKey (s% "normal") p ∧ styleMapNormal m = p.stored (s% "style")) ∨
    (∀ q ∈ l, ¬ HasKey (s% "normal") q) ∧ styleMapNormal m = some .none := by
  unfold styleMapNormal
  rw [hm]
  exact firstStyle_spec _ l hl

/-- **C37.** `highlight` is the style of the first pair with the key `highlight`, and
`None` if there is no such pair. -/
theorem C37_highlight (m : Val Cls F) (l : List (Val Cls F)) (hm : m.stored (s% "pairs") = some (.list l))
    (hl : ArePairs l) :
    (∃ pre p post, l = pre ++ p :: post ∧ (∀ q ∈ pre, ¬ HasKey (s% "highlight") q) ∧
      HasKey (s% "highlight") p ∧ styleMapHighlight m = p.stored (s% "style")) ∨
    (∀ q ∈ l, ¬ HasKey (s% "highlight") q) ∧ styleMapHighlight m = some .none := by
  unfold styleMapHighlight
  rw [hm]
  exact firstStyle_spec _ l hl

/-- **C37.** If the pairs have styles, `normal` is `None` iff there is no pair with that
key; likewise `highlight`.  (A pair without style is possible, and then hides later
pairs with the same key.) -/
theorem C37_none (m : Val Cls F) (l : List (Val Cls F)) (hm : m.stored (s% "pairs") = some (.list l))
    (hl : ArePairs l) (hs : ∀ p ∈ l, p.stored (s% "style") ≠ some .none) :
    (styleMapNormal m = some .none ↔ ∀ q ∈ l, ¬ HasKey (s% "normal") q) ∧
    (styleMapHighlight m = some .none ↔ ∀ q ∈ l, ¬ HasKey (s% "highlight") q) := by
  constructor
  · rcases C37_normal m l hm hl with ⟨pre, p, post, he, h1, h2, h3⟩ | ⟨h1, h2⟩
    · constructor
      · intro h
        exact absurd (h3.symm.trans h) (hs p (by rw [he]; simp))
      · intro h
        exact absurd h2 (h p (by rw [he]; simp))
    · exact ⟨fun _ => h1, fun _ => h2⟩
  · rcases C37_highlight m l hm hl with ⟨pre, p, post, he, h1, h2, h3⟩ | ⟨h1, h2⟩
    · constructor
      · intro h
        exact absurd (h3.symm.trans h) (hs p (by rw [he]; simp))
      · intro h
        exact absurd h2 (h p (by rw [he]; simp))
    · exact ⟨fun _ => h1, fun _ => h2⟩

/-! ## Examples -/

deriving instance DecidableEq for Node

/-- Structural `==`, no properties. -/
def look : Look Fix := ⟨fun v w => decide (v = w), fun _ _ => none⟩

theorem look_eqStr : EqStr look := by
  constructor
  · intro s t
    simp [look]
  · intro v t h
    simp only [look, decide_eq_true_eq] at h
    exact ⟨t, h⟩

/-- A document with a shared style, a style map with two pairs and a style without id in a
placemark in a folder. -/
def styledDoc : Val Cls Fix := newObj .Document [
  (s% "styles", .list [newObj .Style [(s% "id", .str (s% "a"))], newObj .StyleMap [(s% "id", .str (s% "b")),
    (s% "pairs", .list [
      newObj .Pair [(s% "key", .enum .pairKey (s% "highlight")), (s% "style", newObj .StyleUrl [(s% "url", .str (s% "#h"))])],
      newObj .Pair [(s% "key", .enum .pairKey (s% "normal")), (s% "style", newObj .StyleUrl [(s% "url", .str (s% "#n"))])]])]]),
  (s% "features", .list [newObj .Folder [(s% "features", .list [
    newObj .Placemark [(s% "styles", .list [newObj .Style []])],
    newObj .Placemark [(s% "styles", .list [newObj .Style [(s% "id", .str (s% "b"))]])]])]])]

/-- The ids of the nodes. -/
def idsOf (l : List (Node Fix)) : List (Option (Val Cls Fix)) := l.map fun n => match n with
  | .val v => v.stored (s% "id")
  | _ => none

example : idsOf (findAll look ⟨some [.Style, .StyleMap], []⟩ (.val styledDoc)) =
    [some (.str (s% "a")), some (.str (s% "b")), some (.str []), some (.str (s% "b"))] := by
  decide +kernel

/-- Subclasses are found, `ns` can be asked for, and so on. -/
example : (findAll look ⟨some [._Feature], []⟩ (.val styledDoc)).length = 4 ∧
    (findAll look ⟨some [.Pair], [(s% "ns", .str (nsGet N0 (s% "kml"))),
      (s% "key", .enum .pairKey (s% "normal"))]⟩ (.val styledDoc)).length = 1 ∧
    find look ⟨some [.NetworkLink], []⟩ (.val styledDoc) = none := by decide +kernel

/-- All styles of the document have an id. -/
theorem styledDoc_ids : StylesHaveId (.val styledDoc) := by
  intro c ns nss attrs hr hc hg
  have hm : Node.val (.obj c ns nss attrs) ∈ findAll look ⟨some [.Style, .StyleMap], []⟩ (.val styledDoc) :=
    (C35_exact _ _ _ _).mpr ⟨hr, fun cs h => by
      cases h
      exact ⟨c, ns, nss, attrs, rfl, (style_classes c).mpr hc⟩, fun k v h => by cases h⟩
  have : ∀ x ∈ findAll look ⟨some [.Style, .StyleMap], []⟩ (.val styledDoc),
      (match x with | .val v => (v.stored (s% "id")).isSome | _ => true) = true := by
    decide +kernel
  have := this _ hm
  simp only [Val.stored, hg] at this
  cases this

example : idsOf (getStyleByUrl look styledDoc (s% "http://x.y/z.kml#b")).toList = [some (.str (s% "b"))] ∧
    getStyleByUrl look styledDoc (s% "http://x.y/z.kml#c") = none ∧
    (getStyleByUrl look styledDoc (s% "b")).isSome = true := by decide +kernel

/-- The style map of the document. -/
def sampleMap : Val Cls Fix := match getStyleByUrl look styledDoc (s% "#b") with
  | some (.val v) => v
  | _ => .none

example : styleMapNormal sampleMap = some (newObj .StyleUrl [(s% "url", .str (s% "#n"))]) ∧
    styleMapHighlight sampleMap = some (newObj .StyleUrl [(s% "url", .str (s% "#h"))]) ∧
    styleMapNormal (newObj .StyleMap []) = some .none := by decide +kernel

example : ∃ l, sampleMap.stored (s% "pairs") = some (.list l) ∧ ArePairs l ∧
    ∀ p ∈ l, p.stored (s% "style") ≠ some .none := by
  refine ⟨[newObj .Pair [(s% "key", .enum .pairKey (s% "highlight")), (s% "style", newObj .StyleUrl [(s% "url", .str (s% "#h"))])],
      newObj .Pair [(s% "key", .enum .pairKey (s% "normal")), (s% "style", newObj .StyleUrl [(s% "url", .str (s% "#n"))])]],
      by decide +kernel, ?_, by decide +kernel⟩
  intro p hp
  simp only [List.mem_cons, List.not_mem_nil, or_false] at hp
  rcases hp with rfl | rfl <;> exact ⟨⟨_, rfl⟩, _, rfl⟩

end Verif
