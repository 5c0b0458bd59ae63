import Verif.Spec.Content
import Verif.Lemmas.Valid
import Verif.Lemmas.Names

/-!
# What the classes read, compared with the schemas
-/

set_option linter.unusedSectionVars false
set_option linter.unusedSimpArgs false

namespace Verif

open Spec

variable {F : Type} [PyExt F]

/-- The namespace for a prefix. -/
def xid (id : Str) : Option XNs :=
  if sameStr id (s% "kml") then some .kml
  else if sameStr id (s% "gx") then some .gx
  else if sameStr id (s% "atom") then some .atom
  else none

/-- The names with a local part, in the namespaces of an item. -/
def qnsIn (it : Item Cls) (n : Str) : List QN := it.nsIds.filterMap fun id => (xid id).map fun x => .q x n

/-- Membership, computed. -/
def hasQN (l : List QN) (q : QN) : Bool := l.any q.same

theorem hasQN_iff {l : List QN} {q : QN} : hasQN l q = true ↔ q ∈ l := by
  simp [hasQN, List.any_eq_true, QN.same_iff]

/-- At most one of the elements with these names can occur, and at most once. -/
def once (l : List QN) : List Part → Bool
  | [] => true
  | p :: ps => if p.elems.any fun x => hasQN l x.1 then !p.unb && ps.all fun p => !p.elems.any fun x => hasQN l x.1
      else once l ps

/-- The child `q` is read alone. -/
def aloneB (c : Cls) (ps : List Part) (q : QN) (l : List QN) : Bool :=
  once l ps ||
    (decide (c = .Author) && l.all q.same) ||
    (decide (c = .Pair) && q.same (.q .kml (s% "Style")) && once [q] ps &&
      l.all fun x => x.same q || x.same (.q .kml (s% "styleUrl")))

/-- The values of the enumeration of an item. -/
def kindFits (it : Item Cls) : Kind → Bool
  | .text => decide (it.get = .subText ∨ it.get = .attrText ∨ it.get = .nodeText)
  | .bool => decide (it.get = .subBool)
  | .int => decide (it.get = .subInt ∨ it.get = .attrInt)
  | .float => decide (it.get = .subFloat ∨ it.get = .attrFloat)
  | .time => decide (it.get = .subDt)
  | .choice l => decide (it.get = .subEnum ∨ it.get = .attrEnum) && match it.classes with
    | [.enum e] => l.all fun x => e.values.any (sameStr x)
    | _ => false

/-- The classes of an item up to and including a class. -/
def upTo (d : Cls) : List (PyType Cls) → List Cls
  | [] => []
  | .cls d' :: l => if d' = d then [d] else d' :: upTo d l
  | _ :: l => upTo d l

/-- The namespace of a name. -/
def QN.ns : QN → XNs
  | .q x _ => x

/-- The names an item looks for before, or as well as, a child `q` of class `d`. -/
def rivals (it : Item Cls) (d : Cls) (q : QN) : List QN :=
  ((upTo d it.classes).flatMap fun d' => qnsIn it (fastkml.info d').tag) ++
    (clsList it).flatMap fun d' => (qnsIn it (fastkml.info d').tag).filter fun q' => decide (q'.ns ≠ q.ns)

/-- The types of elements read as a class. -/
def typesOf (c : Cls) : List QN := (elemType c).toList ++ if c = .Icon then [basicLink] else []

/-- The item reads the child. -/
def readsChild (c : Cls) (ps : List Part) (q t : QN) (it : Item Cls) : Bool :=
  sameStr it.attr (holder c q.name) &&
  match classFor q with
  | none => decide (place it.get = .child) && sameStr it.node q.name && hasQN (qnsIn it q.name) q &&
      kindFits it (kindOf c q.name (some t)) && aloneB c ps q (qnsIn it it.node)
  | some d => sameStr (fastkml.info d).tag q.name && it.classes.any (fun x => decide (x = .cls d)) && hasQN (typesOf d) t &&
      match it.get with
      | .xmlSub => hasQN (qnsIn it q.name) q && aloneB c ps q (rivals it d q) &&
          (clsList it).all fun d' => decide (d' = d) || !sameStr (fastkml.info d').tag (fastkml.info d).tag
      | .xmlSubList => match it.nsIds with
        | id :: _ => decide ((xid id).map (fun x => QN.q x q.name) = some q)
        | [] => false
      | _ => false

/-- The child is known, or listed as unknown. -/
def childOk (c : Cls) (ps : List Part) (q t : QN) : Bool :=
  hasQN (unsupported c) q || hasQN (rowNames c) q || (fastkml.itemsOf c).any (readsChild c ps q t)

/-- All children of a type are known, or listed as unknown. -/
def childrenOk (c : Cls) (T : QN) : Bool :=
  (partsOf 8 T).all fun p => p.elems.all fun x => match x.2 with
    | none => true
    | some t => childOk c (partsOf 8 T) x.1 t

/-- The item reads the XML attribute. -/
def readsAttr (c : Cls) (a : XAttr) (it : Item Cls) : Bool :=
  sameStr it.attr (holder c a.name) && decide (place it.get = .attr) && sameStr it.node a.name &&
    it.nsIds.any (sameStr []) && kindFits it (kindOf c a.name a.type)

/-- All XML attributes of a type are known, or listed as unknown. -/
def attrsOk (c : Cls) (T : QN) : Bool :=
  (typeAttrs 8 T).all fun a => (unsupportedAttrs c).any (sameStr a.name) || (fastkml.itemsOf c).any (readsAttr c a)

set_option maxRecDepth 10000 in
theorem fastkml_childrenOk {c : Cls} {T : QN} (h : T ∈ typesOf c) : childrenOk c T = true := by
  have key : ∀ c ∈ Cls.all, ((typesOf c).all fun T => childrenOk c T) = true := by decide +kernel
  exact List.all_eq_true.mp (key c (Cls.mem_all c)) T h

set_option maxRecDepth 10000 in
theorem fastkml_attrsOk {c : Cls} {T : QN} (h : T ∈ typesOf c) : attrsOk c T = true := by
  have key : ∀ c ∈ Cls.all, ((typesOf c).all fun T => attrsOk c T) = true := by decide +kernel
  exact List.all_eq_true.mp (key c (Cls.mem_all c)) T h

/-! ## Names -/

theorem tagOf_inj {q q' : QN} (h : tagOf q = tagOf q') : q = q' := by
  obtain ⟨x, n⟩ := q
  obtain ⟨y, m⟩ := q'
  cases x <;> cases y <;> simp [tagOf, uri] at h <;> simp [h]

theorem tagOf_brace (q : QN) : (tagOf q).head? = some '{' := by
  obtain ⟨x, n⟩ := q
  cases x <;> rfl

/-- The standard namespaces. -/
def StdNs (N : NsMap) : Prop := ∀ id, (∀ x, xid id = some x → nsGet N id = uri x) ∧ (id = [] → nsGet N id = [])

theorem stdNs_default : StdNs (mergeNs []) := by
  intro id
  constructor
  · intro x h
    simp only [xid, sameStr_iff] at h
    repeat' split at h
    · rename_i h'; subst h'; cases h; decide +kernel
    · rename_i h'; subst h'; cases h; decide +kernel
    · rename_i h'; subst h'; cases h; decide +kernel
    · cases h
  · rintro rfl
    decide +kernel

/-- The prefixes of the items are those of the namespaces, or empty; names start with no brace. -/
def idsOk (c : Cls) : Bool :=
  (fastkml.itemsOf c).all fun it => (it.nsIds.all fun id => (xid id).isSome || sameStr id []) &&
    decide (it.node.head? ≠ some '{') && (clsList it).all fun d => decide ((fastkml.info d).tag.head? ≠ some '{')

theorem fastkml_idsOk (c : Cls) : idsOk c = true := by
  have key : ∀ c ∈ Cls.all, idsOk c = true := by decide +kernel
  exact key c (Cls.mem_all c)

theorem item_ids {c : Cls} {it : Item Cls} (hit : it ∈ fastkml.itemsOf c) {id : Str} (h : id ∈ it.nsIds) :
    (∃ x, xid id = some x) ∨ id = [] := by
  have := List.all_eq_true.mp (fastkml_idsOk c) it hit
  simp only [Bool.and_eq_true, List.all_eq_true, Bool.or_eq_true, sameStr_iff] at this
  rcases this.1.1 id h with h | h
  · exact .inl (Option.isSome_iff_exists.mp h)
  · exact .inr h

theorem item_node {c : Cls} {it : Item Cls} (hit : it ∈ fastkml.itemsOf c) : it.node.head? ≠ some '{' := by
  have := List.all_eq_true.mp (fastkml_idsOk c) it hit
  simp only [Bool.and_eq_true, decide_eq_true_eq] at this
  exact this.1.2

theorem item_tag {c : Cls} {it : Item Cls} (hit : it ∈ fastkml.itemsOf c) {d : Cls} (h : .cls d ∈ it.classes) :
    (fastkml.info d).tag.head? ≠ some '{' := by
  have := List.all_eq_true.mp (fastkml_idsOk c) it hit
  simp only [Bool.and_eq_true, List.all_eq_true, decide_eq_true_eq] at this
  refine this.2 d ?_
  simp only [clsList, List.mem_filterMap]
  exact ⟨_, h, rfl⟩

/-- A tag looked for is that of a name, or has no namespace. -/
theorem looked_tag {N : NsMap} (hN : StdNs N) {c : Cls} {it : Item Cls} (hit : it ∈ fastkml.itemsOf c) {id : Str}
    (h : id ∈ it.nsIds) {n : Str} (hn : n.head? ≠ some '{') {q : QN} (hq : nsGet N id ++ n = tagOf q) :
    q ∈ qnsIn it n ∧ q.name = n := by
  rcases item_ids hit h with ⟨x, hx⟩ | rfl
  · rw [(hN id).1 x hx] at hq
    have : q = .q x n := (tagOf_inj (q := .q x n) hq).symm
    subst this
    refine ⟨?_, rfl⟩
    simp only [qnsIn, List.mem_filterMap]
    exact ⟨id, h, by rw [hx]; rfl⟩
  · rw [(hN []).2 rfl] at hq
    exact absurd (by rw [← tagOf_brace q, ← hq]; rfl) hn

theorem mem_qnsIn {it : Item Cls} {n : Str} {q : QN} (h : q ∈ qnsIn it n) :
    ∃ id ∈ it.nsIds, ∃ x, xid id = some x ∧ q = .q x n := by
  simp only [qnsIn, List.mem_filterMap, Option.map_eq_some_iff] at h
  obtain ⟨id, hid, x, hx, rfl⟩ := h
  exact ⟨id, hid, x, hx, rfl⟩

/-! ## Children -/

theorem orderedAll_split {pre : List Xml} : ∀ {qs : List Typed} {k : Xml} {post : List Xml},
    OrderedAll qs (pre ++ k :: post) → ∃ qpre q t qpost, qs = qpre ++ (q, some t) :: qpost ∧ OrderedAll qpre pre ∧
      k.tag = tagOf q ∧ Ordered t k ∧ OrderedAll qpost post := by
  induction pre with
  | nil =>
    intro qs k post h
    cases h with
    | cons hn hv h => exact ⟨[], _, _, _, rfl, .nil, hn, hv, h⟩
  | cons k' pre ih =>
    intro qs k post h
    cases h with
    | cons hn hv h =>
      obtain ⟨qpre, q, t, qpost, rfl, h1, h2, h3, h4⟩ := ih h
      exact ⟨_ :: qpre, q, t, qpost, rfl, .cons hn hv h1, h2, h3, h4⟩

theorem orderedAll_mem {qs : List Typed} {ks : List Xml} (h : OrderedAll qs ks) : ∀ k ∈ ks, ∃ x ∈ qs, k.tag = tagOf x.1 := by
  induction ks generalizing qs with
  | nil => intro k hk; cases hk
  | cons k' ks ih =>
    intro k hk
    cases h with
    | cons hn hv h =>
      rcases List.mem_cons.mp hk with rfl | hk
      · exact ⟨_, List.mem_cons_self, hn⟩
      · obtain ⟨x, hx, he⟩ := ih h k hk
        exact ⟨x, List.mem_cons_of_mem _ hx, he⟩

theorem accepts_mem {ps : List Part} {qs : List Typed} (h : Accepts ps qs) : ∀ x ∈ qs, ∃ p ∈ ps, x ∈ p.elems := by
  induction h with
  | nil => intro x hx; cases hx
  | cons hin hmin hmax h ih =>
    intro x hx
    rcases List.mem_append.mp hx with hx | hx
    · exact ⟨_, List.mem_cons_self, hin x hx⟩
    · obtain ⟨p, hp, h⟩ := ih x hx
      exact ⟨p, List.mem_cons_of_mem _ hp, h⟩

theorem accepts_never {l : List QN} {ps : List Part} {qs : List Typed} (h : Accepts ps qs)
    (hn : (ps.all fun p => !p.elems.any fun x => hasQN l x.1) = true) : qs.filter (fun x => hasQN l x.1) = [] := by
  rw [List.filter_eq_nil_iff]
  intro x hx
  obtain ⟨p, hp, hxp⟩ := accepts_mem h x hx
  have := List.all_eq_true.mp hn p hp
  simp only [Bool.not_eq_true', List.any_eq_false] at this
  simpa using this x hxp

theorem accepts_once {l : List QN} {ps : List Part} {qs : List Typed} (h : Accepts ps qs) (ho : once l ps = true) :
    (qs.filter fun x => hasQN l x.1).length ≤ 1 := by
  induction h with
  | nil => simp
  | @cons p ps ts us hin hmin hmax h ih =>
    rw [List.filter_append, List.length_append]
    simp only [once] at ho
    split at ho
    · simp only [Bool.and_eq_true] at ho
      rw [accepts_never h ho.2]
      rcases hmax with hm | hm
      · simp [hm] at ho
      · have := List.length_filter_le (fun x : Typed => hasQN l x.1) ts
        simp only [List.length_nil]
        omega
    · rename_i hno
      have : ts.filter (fun x => hasQN l x.1) = [] := by
        rw [List.filter_eq_nil_iff]
        intro x hx hc
        exact hno (List.any_eq_true.mpr ⟨x, hin x hx, hc⟩)
      rw [this]
      simpa using ih ho

/-- The other children have none of the names. -/
theorem once_others {l : List QN} {ps : List Part} {qpre qpost : List Typed} {q : QN} {t : Option QN}
    (h : Accepts ps (qpre ++ (q, t) :: qpost)) (ho : once l ps = true) (hq : q ∈ l) {pre post : List Xml}
    (h1 : OrderedAll qpre pre) (h2 : OrderedAll qpost post) :
    ∀ k ∈ pre ++ post, ∀ q' ∈ l, k.tag ≠ tagOf q' := by
  have hl := accepts_once h ho
  rw [List.filter_append, List.filter_cons_of_pos (by simpa using hasQN_iff.mpr hq)] at hl
  simp only [List.length_append, List.length_cons] at hl
  have e1 : qpre.filter (fun x => hasQN l x.1) = [] := List.length_eq_zero_iff.mp (by omega)
  have e2 : qpost.filter (fun x => hasQN l x.1) = [] := List.length_eq_zero_iff.mp (by omega)
  rw [List.filter_eq_nil_iff] at e1 e2
  intro k hk q' hq' he
  rcases List.mem_append.mp hk with hk | hk
  · obtain ⟨x, hx, hxe⟩ := orderedAll_mem h1 k hk
    exact e1 x hx (hasQN_iff.mpr (by rw [tagOf_inj (hxe.symm.trans he)]; exact hq'))
  · obtain ⟨x, hx, hxe⟩ := orderedAll_mem h2 k hk
    exact e2 x hx (hasQN_iff.mpr (by rw [tagOf_inj (hxe.symm.trans he)]; exact hq'))

/-- The child is the first with its name, and no child has one of the other names. -/
theorem alone {c : Cls} {ps : List Part} {q : QN} {t : Option QN} {l : List QN} (ha : aloneB c ps q l = true) (hq : q ∈ l)
    {qpre qpost : List Typed} (h : Accepts ps (qpre ++ (q, t) :: qpost)) {pre post : List Xml}
    (h1 : OrderedAll qpre pre) (h2 : OrderedAll qpost post) (hd : ¬ Displaced c pre post (tagOf q)) :
    (∀ k ∈ pre, k.tag ≠ tagOf q) ∧ ∀ k ∈ pre ++ post, ∀ q' ∈ l, q' ≠ q → k.tag ≠ tagOf q' := by
  simp only [aloneB, Bool.or_eq_true, Bool.and_eq_true, decide_eq_true_eq, List.all_eq_true, QN.same_iff] at ha
  rcases ha with (ha | ⟨hc, hl⟩) | ⟨⟨⟨hc, hs⟩, ho⟩, hl⟩
  · have := once_others h ha hq h1 h2
    exact ⟨fun k hk => this k (List.mem_append_left _ hk) q hq, fun k hk q' hq' _ => this k hk q' hq'⟩
  · refine ⟨fun k hk he => hd (.inl ⟨hc, k, hk, he⟩), fun k hk q' hq' hne => absurd (hl q' hq').symm hne⟩
  · have := once_others h ho (by simp) h1 h2
    refine ⟨fun k hk => this k (List.mem_append_left _ hk) q (by simp), fun k hk q' hq' hne => ?_⟩
    rcases hl q' hq' with h' | h'
    · exact absurd h' hne
    · subst h'
      exact fun he => hd (.inr ⟨hc, by rw [hs], k, hk, he⟩)

theorem find_first {e k : Xml} {pre post : List Xml} (he : e.kids = pre ++ k :: post) (h : ∀ k' ∈ pre, k'.tag ≠ k.tag) :
    e.find k.tag = some k := by
  simp only [Xml.find, he, List.find?_append]
  rw [List.find?_eq_none.mpr (by simpa using h)]
  simp

theorem find_absent {e k : Xml} {pre post : List Xml} (he : e.kids = pre ++ k :: post) {tag : Str}
    (hk : k.tag ≠ tag) (h : ∀ k' ∈ pre ++ post, k'.tag ≠ tag) : e.find tag = none := by
  simp only [Xml.find, List.find?_eq_none, decide_eq_true_eq]
  intro k' hk'
  rw [he] at hk'
  rcases List.mem_append.mp hk' with h' | h'
  · exact h k' (List.mem_append_left _ h')
  · rcases List.mem_cons.mp h' with rfl | h'
    · exact hk
    · exact h k' (List.mem_append_right _ h')

/-- The first element with a property. -/
theorem first_split {α : Type} (P : α → Prop) {l : List α} {a : α} (ha : a ∈ l) (hP : P a) :
    ∃ pre b post, l = pre ++ b :: post ∧ P b ∧ ∀ x ∈ pre, ¬ P x := by
  induction l with
  | nil => cases ha
  | cons x l ih =>
    by_cases hx : P x
    · exact ⟨[], x, l, rfl, hx, by intro y hy; cases hy⟩
    · rcases List.mem_cons.mp ha with rfl | ha
      · exact absurd hP hx
      · obtain ⟨pre, b, post, rfl, h1, h2⟩ := ih ha
        refine ⟨x :: pre, b, post, rfl, h1, ?_⟩
        intro y hy
        rcases List.mem_cons.mp hy with rfl | hy
        · exact hx
        · exact h2 y hy

end Verif
