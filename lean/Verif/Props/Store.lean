import Verif.Lemmas.StoreLocal
import Verif.Props.Writing
import Verif.Props.Cycle

/-!
# C64, C65: programs that make and change objects
-/

set_option linter.unusedSectionVars false
set_option linter.unusedSimpArgs false

namespace Verif

open Spec

variable {F : Type} [PyExt F]

/-! ## C64: after any program -/

/-- **C64.** After any program that a type checker accepts — constructors, reading,
assignments, `append` and changes of lists, in any order and with any sharing — the
attributes of every object have the annotated types. -/
theorem C64_typed {n : Nat} {h : Store F} (hh : History n h) {m r : Nat} {v : Val Cls F} (hv : h.view m r = some v) :
    typed fastkml dim23 v = true := view_typed (history_wt hh) hv

/-- **C64.** After any such program an object can be written, if neither it nor any object
below it is below itself; a recursion limit of the number of objects is enough. -/
theorem C64_writes {n : Nat} {h : Store F} (hh : History n h) {r : Nat} (hr : r < h.objs.length)
    (hf : ∀ s, s = r ∨ Beneath h s r → ¬ Beneath h s s) {m : Nat} (hm : h.objs.length ≤ m) (o : Opts) :
    ∃ x, h.write m o r = .ok x := by
  obtain ⟨v, hv⟩ := view_exists (history_wt hh) h.objs.length (r := r) [] (by simp) (by simp) hr hf (by simp)
  have hv := view_mono hm hv
  have ht := view_typed (history_wt hh) hv
  cases m with
  | zero => cases hv
  | succ m =>
    obtain ⟨b, as, _, _, rfl⟩ := view_obj hv
    obtain ⟨x, hx⟩ := C54_succeeds ht o
    exact ⟨x, by simp only [Store.write, hv, hx]⟩

/-- **C64.** If the object, or an object below it, is below itself, writing stops with
`RecursionError`, whatever the limit. -/
theorem C64_cycle {h : Store F} {r s : Nat} (hs : s = r ∨ Beneath h s r) (hc : Beneath h s s) (m : Nat) (o : Opts) :
    h.write m o r = .error .recursion := by
  have : h.view m r = none := view_not_free (fun hf => hf s hs hc) m
  simp only [Store.write, this]

theorem write_of_view {h : Store F} {m r : Nat} {v : Val Cls F} (hv : h.view m r = some v) (o : Opts) :
    h.write m o r = (ser fastkml o v).mapError .raised := by
  simp only [Store.write, hv]
  cases ser fastkml o v <;> rfl

/-- **C64.** A constructor makes what the constructor of trees (`init`, about which the
other properties are) makes from the same arguments, and raises the same exceptions. -/
theorem C64_make {n : Nat} {h : Store F} {c : Cls} {ns : Option Str} {nss : NsMap} {kw : List (Str × Ref F)}
    {vs : List (Str × Val Cls F)} (hok : actOk h (.make c ns nss kw))
    (hvs : optAll (h.attrValue (h.view n)) kw = some vs) :
    (∀ h', h.step n (.make c ns nss kw) = .ok h' → ∃ v, init fastkml c ns nss vs = .ok v ∧
      ∀ o, h'.write (n + 1) o h.objs.length = (ser fastkml o v).mapError .raised) ∧
    (∀ e, h.step n (.make c ns nss kw) = .error e → ∃ x, init fastkml c ns nss vs = .error x ∧ e = .raised x) := by
  have ha := make_agree (ns := ns) (nss := nss) hok.1 hvs
  simp only [Store.step]
  cases e1 : h.make n c ns nss kw <;> cases e2 : init fastkml c ns nss vs <;> rw [e1, e2] at ha
  · refine ⟨fun h' he => (by cases he), fun e he => ?_⟩
    cases he
    exact ⟨_, rfl, ha⟩
  · exact ha.elim
  · exact ha.elim
  · refine ⟨fun h' he => ?_, fun e he => (by cases he)⟩
    cases he
    obtain ⟨_, as, rfl, hv⟩ := ha
    refine ⟨_, rfl, fun o => ?_⟩
    rw [write_of_view hv, ser_visible]

/-- **C64.** Reading makes new objects; the last one is written as the result of
reading. -/
theorem C64_read {n : Nat} {h : Store F} (hh : History n h) {strict : Bool} {e : Xml} {c : Cls} {ns : Str} {nss : NsMap}
    {v : Val Cls F} (hp : parse fastkml strict e c ns nss = .ok v) (hco : ∀ d, Sub e d → ¬ BadTuple F d) :
    ∃ h' r, h.step n (.read v) = .ok h' ∧ h.objs.length ≤ r ∧ h'.objs.length = r + 1 ∧
      ∃ m, ∀ k, m ≤ k → ∀ o, h'.write k o r = (ser fastkml o v).mapError .raised := by
  obtain ⟨h', r, as, e1, g, rfl, m, hm⟩ := read_view hp hco (history_wt hh) (.objs [])
  have hr : h.objs.length ≤ r ∧ h'.objs.length = r + 1 := by
    simp only [Store.load, Store.addObj, Prod.mk.injEq, Ref.obj.injEq] at e1
    obtain ⟨h1, h2⟩ := e1
    obtain ⟨bs, hb⟩ := (loadAttrs_adds c as h).1.objs
    rw [← h1, ← h2]
    refine ⟨by rw [hb]; simp, by simp [Store.newObj]⟩
  refine ⟨h', r, ?_, hr.1, hr.2, m, fun k hk o => ?_⟩
  · simp only [Store.step, e1]
  · rw [write_of_view (view_mono hk hm), ser_visible]

/-- **C64.** The value assigned to an attribute is what the attribute then holds, and the
other attributes hold what they held. -/
theorem C64_assign {n : Nat} {h h' : Store F} {r : Nat} {a : Str} {x : Ref F} (hs : h.step n (.assign r a x) = .ok h') {m : Nat}
    {c : Cls} {ns : Str} {nss : NsMap} {as : List (Str × Val Cls F)} (hv : h'.view (m + 1) r = some (.obj c ns nss as)) :
    (visible c a = true → h'.value (h'.view m) x = some (attr a as)) ∧
    ∃ b, h.objs[r]? = some b ∧ b.cls = c ∧ b.ns = ns ∧ b.nss = nss ∧
      ∀ k, k ≠ a → visible c k = true → h'.value (h'.view m) (kwRef k b.attrs) = some (attr k as) := by
  simp only [Store.step] at hs
  split at hs
  · cases hs
  · rename_i b hb
    split at hs
    · cases hs
    · cases hs
      obtain ⟨b', as', hb', ho, he⟩ := view_obj hv
      have hlt := (List.getElem?_eq_some_iff.mp hb).1
      simp only [List.getElem?_set_self hlt, Option.some.injEq] at hb'
      subst hb'
      cases he
      refine ⟨fun hvis => ?_, b, hb, rfl, rfl, rfl, fun k hk hvis => ?_⟩
      · have := attr_view (keep := visible b.cls) ho hvis
        simpa only [kwRef_dset, if_true] using this
      · have := attr_view (keep := visible b.cls) ho hvis
        simpa only [kwRef_dset, if_neg (fun h => hk (Eq.symm h))] using this

/-- **C64.** `append` puts the object at the end of the list: the members are those the
list had, as they are now, and the new one. -/
theorem C64_append {n : Nat} {h h' : Store F} {r x : Nat} (hs : h.step n (.append r x) = .ok h') {m : Nat}
    {c : Cls} {ns : Str} {nss : NsMap} {as : List (Str × Val Cls F)} (hv : h'.view (m + 1) r = some (.obj c ns nss as)) :
    ∃ a own l t rs ms w, growing c = some (a, own) ∧ attr a as = .list (ms ++ [w]) ∧
      h.objs[r]?.map (fun b => kwRef a b.attrs) = some (.list l) ∧ h.lists[l]? = some (t, .objs rs) ∧
      optAll (h'.view m) rs = some ms ∧ h'.view m x = some w := by
  simp only [Store.step] at hs
  split at hs
  · cases hs
  · rename_i b hb
    split at hs
    · cases hs
    · rename_i a own hg
      split at hs
      · cases hs
      · split at hs
        · rename_i l hl
          split at hs
          · cases hs
          · rename_i t cs hcs
            cases cs with
            | coords _ => cases hs
            | items _ => cases hs
            | objs rs =>
              simp only [Cells.push] at hs
              cases hs
              obtain ⟨b', as', hb', ho, he⟩ := view_obj hv
              simp only at hb'
              rw [hb] at hb'
              cases hb'
              cases he
              obtain ⟨it, hit, ha, hget⟩ := growing_item hg
              have hvis : visible b.cls a = true :=
                visible_iff.mpr (Or.inl ⟨it, hit, ha, by rw [hget]; decide, by rw [hget]; decide⟩)
              have hval := attr_view (keep := visible b.cls) ho hvis
              have hlt := (List.getElem?_eq_some_iff.mp hcs).1
              rw [hl] at hval
              simp only [Store.value, List.getElem?_set_self hlt, Option.map_eq_some_iff] at hval
              obtain ⟨ws, hws, he⟩ := hval
              obtain ⟨ms, w, h1, h2, h3⟩ := optAll_snoc hws
              exact ⟨a, own, l, t, rs, ms, w, hg, by rw [← he, h3], by rw [hb]; simp [hl], hcs, h1, h2⟩
        · cases hs

/-- **C64.** A document or folder cannot be appended to itself. -/
theorem C64_append_self {n : Nat} {h : Store F} {r : Nat} {b : Cell F} (hb : h.objs[r]? = some b)
    (hc : b.cls = .Document ∨ b.cls = .Folder) : h.step n (.append r r) = .error (.raised .valueError) := by
  have : growing b.cls = some (s% "features", true) := by rcases hc with hc | hc <;> rw [hc] <;> decide +kernel
  simp only [Store.step, hb, this, and_self, if_true]

/-! ## C65: what a step changes -/

/-- **C65.** Constructing and reading objects, and making lists, changes no object. -/
theorem C65_new {n : Nat} {h h' : Store F} (hh : History n h) {op : Act F} (hok : actOk h op)
    (hop : (∃ t l, op = .list t l) ∨ (∃ c ns nss kw, op = .make c ns nss kw) ∨ ∃ v, op = .read v)
    (hs : h.step n op = .ok h') {r : Nat} (hr : r < h.objs.length) (m : Nat) : h'.view m r = h.view m r := by
  have hw := history_wt hh
  rcases hop with ⟨t, l, rfl⟩ | ⟨c, ns, nss, kw, rfl⟩ | ⟨v, rfl⟩
  · cases hs
    exact view_grow_eq hw (grow_newList h t l) hr m
  · exact view_grow_eq hw (make_wt hw hok hs).2 hr m
  · cases hs
    obtain ⟨strict, e, c, ns, nss, hp, hco⟩ := hok
    obtain ⟨_, as, hv⟩ := parse_typed fastkml_readOk hp
    obtain ⟨h', r', e1, _, g, _⟩ := load_ok v c _ _ as hv (read_loads hp hco) (.objs []) h hw
    rw [e1]
    exact view_grow_eq hw g hr m

/-- **C65.** Assigning to an attribute, or to `ns`, changes that object and those it is
below; no others. -/
theorem C65_assign {n : Nat} {h h' : Store F} {op : Act F} {s : Nat}
    (hop : (∃ a x, op = .assign s a x) ∨ ∃ ns, op = .rename s ns) (hs : h.step n op = .ok h')
    {r : Nat} (h1 : r ≠ s) (h2 : ¬ Beneath h s r) (m : Nat) : h'.view m r = h.view m r := by
  rcases hop with ⟨a, x, rfl⟩ | ⟨ns, rfl⟩
  · simp only [Store.step] at hs
    split at hs
    · cases hs
    · split at hs
      · cases hs
      · cases hs; exact view_setObj h1 h2 m
  · simp only [Store.step] at hs
    split at hs
    · cases hs
    · cases hs; exact view_setObj h1 h2 m

/-- **C65.** Changing a list changes the objects that hold it, and those that these are
below; no others. -/
theorem C65_change {n : Nat} {h h' : Store F} {a : Nat} {l : Cells F} (hs : h.step n (.change a l) = .ok h') {r : Nat}
    (hn : ∀ s, s = r ∨ Beneath h s r → ¬ HoldsList h s a) (m : Nat) : h'.view m r = h.view m r := by
  simp only [Store.step] at hs
  split at hs
  · cases hs
  · cases hs; exact view_setList hn m

/-- **C65.** The lists that a new object holds are new: the lists given to the constructor
are copied.  The one exception is `Coordinates(coords=...)`. -/
theorem C65_copies {n : Nat} {h h' : Store F} {c : Cls} {ns : Option Str} {nss : NsMap} {kw : List (Str × Ref F)}
    (hok : actOk h (.make c ns nss kw)) (hs : h.step n (.make c ns nss kw) = .ok h') {l : Nat}
    (hl : HoldsList h' h.objs.length l) :
    h.lists.length ≤ l ∨ (c = .Coordinates ∧ kwRef (s% "coords") kw = .list l) := make_lists hok hs hl

/-- **C65.** In a program that assigns no lists to attributes, and constructs
`Coordinates` from tuples, a list the program has made remains its own: whatever was
constructed from it, changing it later changes no object. -/
theorem C65_callers_lists {n : Nat} {h h1 h2 : Store F} (hh : TameSteps n .empty h) {t : ElemTy} {l : Cells F}
    (hok : actOk h (.list t l)) (hs : h.step n (.list t l) = .ok h1) (hp : TameSteps n h1 h2)
    {l' : Cells F} {h3 : Store F} (hc : h2.step n (.change h.lists.length l') = .ok h3) (r m : Nat) :
    h3.view m r = h2.view m r := by
  have hw : WT h := tame_wt (history_wt (.start (n := n))) hh
  have hw1 : WT h1 := step_wt hw hok hs
  have hl : h.lists.length < h1.lists.length := by cases hs; simp [Store.newList]
  have hf : ∀ r, ¬ HoldsList h1 r h.lists.length := by
    intro r hr
    cases hs
    have := holdsList_lt hw (holdsList_lists.mp hr)
    omega
  exact C65_change hc (fun s _ => (tame_free hw1 hl hf hp).2 s) m

/-- **C65.** In such a program `append` changes that object and those it is below; no
others. -/
theorem C65_append {n : Nat} {h h' : Store F} (hh : TameSteps n .empty h) {s x : Nat} (hs : h.step n (.append s x) = .ok h')
    {r : Nat} (h1 : r ≠ s) (h2 : ¬ Beneath h s r) (m : Nat) : h'.view m r = h.view m r := by
  have hown : Own h := tame_own (history_wt (.start (n := n))) (by
    intro r s l hr _
    exact absurd hr (not_holdsList (by simp [Store.empty]))) hh
  simp only [Store.step] at hs
  split at hs
  · cases hs
  · rename_i b hb
    split at hs
    · cases hs
    · rename_i a own hg
      split at hs
      · cases hs
      · split at hs
        · rename_i l hl
          split at hs
          · cases hs
          · split at hs
            · cases hs
            · cases hs
              refine view_setList (fun t ht hh' => ?_) m
              have hs' : HoldsList h s l := by
                obtain ⟨it, hit, ha, hget⟩ := growing_item hg
                have hm : a ∈ b.attrs.map Prod.fst := by
                  cases hd : dget a b.attrs with
                  | none => simp only [kwRef, hd] at hl; cases hl
                  | some y => exact List.mem_map.mpr ⟨_, dget_mem hd, rfl⟩
                refine ⟨b, a, hb, hl ▸ kwRef_mem hm, visible_iff.mpr (Or.inl ⟨it, hit, ha, ?_, ?_⟩)⟩ <;> rw [hget] <;> decide
              have := hown t s l hh' hs'
              subst this
              rcases ht with ht | ht
              · exact h1 ht.symm
              · exact h2 ht
        · cases hs

/-! ## Concrete programs -/

/-- Checks the condition `IsA`. -/
def isAB (h : Store F) (r : Nat) (cs : List (PyType Cls)) : Bool :=
  match h.objs[r]? with
  | some b => decide (.cls b.cls ∈ cs)
  | none => false

theorem isAB_sound {h : Store F} {r : Nat} {cs : List (PyType Cls)} (hb : isAB h r cs = true) : IsA h r cs := by
  simp only [isAB] at hb
  split at hb
  · rename_i b hr; exact ⟨b, hr, of_decide_eq_true hb⟩
  · cases hb

/-- Checks the annotation of a list. -/
def annB (h : Store F) (t : ElemTy) : Ref F → Bool
  | .list a => match h.lists[a]? with
    | some (t', _) => decide (t' = t)
    | none => false
  | _ => false

theorem annB_sound {h : Store F} {t : ElemTy} {x : Ref F} (hb : annB h t x = true) : ∃ a l, x = .list a ∧ h.lists[a]? = some (t, l) := by
  cases x with
  | list a =>
    simp only [annB] at hb
    split at hb
    · rename_i t' l hl
      have := of_decide_eq_true hb
      subst this
      exact ⟨a, l, rfl, hl⟩
    · cases hb
  | _ => cases hb

/-- `None` or an instance. -/
def subB (h : Store F) (cs : List (PyType Cls)) : Ref F → Bool
  | .val .none => true
  | .obj r => isAB h r cs
  | _ => false

/-- Coordinates. -/
def coordsB (h : Store F) : Ref F → Bool
  | .val (.coords p) => p.all dim23
  | x => annB h .coords x

/-- A value. -/
def plainB (it : Item Cls) : Ref F → Bool
  | .val v => kindOk dim23 it v
  | _ => false

/-- Checks the condition `refOk`. -/
def refOkB (h : Store F) (it : Item Cls) (x : Ref F) : Bool :=
  match it.get with
  | .xmlSub => subB h it.classes x
  | .xmlSubList => annB h (.objs it.classes) x
  | .coordinates => coordsB h x
  | .subDtList | .coordsList => true
  | _ => plainB it x

theorem refOkB_sound {h : Store F} {it : Item Cls} {x : Ref F} (hb : refOkB h it x = true) : refOk h it x := by
  have hplain : plainB it x = true → ∃ v, x = .val v ∧ kindOk dim23 it v = true := by
    intro hp
    cases x with
    | val v => exact ⟨v, rfl, hp⟩
    | _ => cases hp
  cases hg : it.get <;> simp only [refOkB, hg] at hb <;> simp only [refOk, hg] <;> try exact hplain hb
  · unfold subB at hb
    split at hb
    · exact Or.inl rfl
    · exact Or.inr ⟨_, rfl, isAB_sound hb⟩
    · cases hb
  · exact annB_sound hb
  · unfold coordsB at hb
    split at hb
    · exact Or.inl ⟨_, rfl, hb⟩
    · exact Or.inr (annB_sound hb)

/-- Checks the condition `listOk`. -/
def listOkB (h : Store F) : ElemTy → Cells F → Bool
  | .objs cs, .objs rs => rs.all fun r => isAB h r cs
  | .coords, .coords l => l.all dim23
  | .items, .items l => l.all fun i => decide (i.coord.length = 2 ∨ i.coord.length = 3)
  | _, _ => false

theorem listOkB_sound {h : Store F} {t : ElemTy} {l : Cells F} (hb : listOkB h t l = true) : listOk h t l := by
  cases t <;> cases l <;> first | (cases hb; done) | simp only [listOkB, List.all_eq_true] at hb
  · exact fun r hr => isAB_sound (hb r hr)
  · simpa only [listOk, List.all_eq_true] using hb
  · exact fun i hi => of_decide_eq_true (hb i hi)

/-- A list of instances. -/
def membersB (h : Store F) (cs : List (PyType Cls)) : Ref F → Bool
  | .list a => match h.lists[a]? with
    | some (_, .objs rs) => rs.all fun r => isAB h r cs
    | _ => false
  | _ => false

/-- Is it `None`? -/
def isNone : Ref F → Bool
  | .val .none => true
  | _ => false

/-- Checks the condition `argOk`. -/
def argOkB (h : Store F) (it : Item Cls) (x : Ref F) : Bool :=
  isNone x || match it.get with
    | .xmlSubList => membersB h it.classes x
    | _ => refOkB h it x

theorem isNone_sound {x : Ref F} (h : isNone x = true) : x = .val .none := by
  unfold isNone at h
  split at h
  · rfl
  · cases h

theorem argOkB_sound {h : Store F} {it : Item Cls} {x : Ref F} (hb : argOkB h it x = true) : argOk h it x := by
  simp only [argOkB, Bool.or_eq_true] at hb
  rcases hb with hb | hb
  · exact Or.inl (isNone_sound hb)
  · right
    by_cases hg : it.get = .xmlSubList
    · simp only [hg] at hb ⊢
      cases x with
      | list a =>
        simp only [membersB] at hb
        split at hb
        · rename_i t rs hl
          exact ⟨a, t, rs, rfl, hl, fun r hr => isAB_sound (List.all_eq_true.mp hb r hr)⟩
        · cases hb
      | _ => cases hb
    · cases he : it.get <;> rw [he] at hg hb <;> first | exact absurd rfl hg | exact refOkB_sound hb

/-- Checks the condition `actOk` of steps other than reading. -/
def actOkB (h : Store F) : Act F → Bool
  | .list t l => listOkB h t l
  | .change a l => match h.lists[a]? with
    | some (t, _) => listOkB h t l
    | none => true
  | .make c _ _ kw => ((fastkml.itemsOf c).all fun it => argOkB h it (kwRef it.attr kw)) &&
      (decide ((fastkml.info c).special ≠ .track) || (isNone (kwRef (s% "track_items") kw) ||
        annB h .items (kwRef (s% "track_items") kw)))
  | .read _ => false
  | .assign r a x => match h.objs[r]? with
    | none => true
    | some b => ((fastkml.itemsOf b.cls).all fun it => decide (it.attr ≠ a) || refOkB h it x) &&
      (decide ((fastkml.info b.cls).special ≠ .track) || (decide (a ≠ s% "track_items") || annB h .items x))
  | .rename _ _ => true
  | .append r x => match h.objs[r]? with
    | none => true
    | some b => match growing b.cls with
      | none => true
      | some (a, _) => (fastkml.itemsOf b.cls).all fun it => decide (it.attr ≠ a) || isAB h x it.classes

theorem actOkB_sound {h : Store F} {op : Act F} (hb : actOkB h op = true) : actOk h op := by
  cases op with
  | list t l => exact listOkB_sound hb
  | change a l =>
    intro t l' hl
    simp only [actOkB, hl] at hb
    exact listOkB_sound hb
  | make c ns nss kw =>
    simp only [actOkB, Bool.and_eq_true, List.all_eq_true, Bool.or_eq_true, decide_eq_true_eq] at hb
    refine ⟨fun it hit => argOkB_sound (hb.1 it hit), fun hst => ?_⟩
    rcases hb.2 with h1 | h1 | h1
    · exact absurd hst h1
    · exact Or.inl (isNone_sound h1)
    · exact Or.inr (annB_sound h1)
  | read v => cases hb
  | assign r a x =>
    intro b hr
    simp only [actOkB, hr, Bool.and_eq_true, List.all_eq_true, Bool.or_eq_true, decide_eq_true_eq] at hb
    refine ⟨fun it hit ha => ?_, fun hst ha => ?_⟩
    · rcases hb.1 it hit with h1 | h1
      · exact absurd ha h1
      · exact refOkB_sound h1
    · rcases hb.2 with h1 | h1 | h1
      · exact absurd hst h1
      · exact absurd ha h1
      · exact annB_sound h1
  | rename r ns => trivial
  | append r x =>
    intro b a own hr hg it hit ha
    simp only [actOkB, hr, hg, List.all_eq_true, Bool.or_eq_true, decide_eq_true_eq] at hb
    rcases hb it hit with h1 | h1
    · exact absurd ha h1
    · exact isAB_sound h1

/-- Checks a program. -/
def progOk (n : Nat) : Store F → List (Act F) → Bool
  | _, [] => true
  | h, op :: ops => actOkB h op && progOk n (h.next n op) ops

theorem history_run {n : Nat} {ops : List (Act F)} : ∀ {h : Store F}, History n h → progOk n h ops = true → History n (h.run n ops) := by
  induction ops with
  | nil => intro h hh _; exact hh
  | cons op ops ih =>
    intro h hh hb
    simp only [progOk, Bool.and_eq_true] at hb
    exact ih (.step hh (actOkB_sound hb.1)) hb.2

/-- Checks the condition `Tame`. -/
def tameB : Act F → Bool
  | .assign _ _ (.list _) => false
  | .assign _ _ _ => true
  | .make .Coordinates _ _ kw => match kwRef (s% "coords") kw with
    | .list _ => false
    | _ => true
  | _ => true

theorem tameB_sound {op : Act F} (hb : tameB op = true) : Tame op := by
  cases op with
  | assign r a x =>
    rintro l rfl
    cases hb
  | make c ns nss kw =>
    rintro rfl l hl
    simp only [tameB, hl] at hb
    cases hb
  | _ => trivial

theorem tame_run {n : Nat} {ops : List (Act F)} {h : Store F} : ∀ {h' : Store F}, TameSteps n h h' → progOk n h' ops = true →
    ops.all tameB = true → TameSteps n h (h'.run n ops) := by
  induction ops with
  | nil => intro h' hh _ _; exact hh
  | cons op ops ih =>
    intro h' hh hb ht
    simp only [progOk, Bool.and_eq_true] at hb
    simp only [List.all_cons, Bool.and_eq_true] at ht
    exact ih (.step hh (actOkB_sound hb.1) (tameB_sound ht.1)) hb.2 ht.2

/-- The classes of the members of a list attribute. -/
def classesOf (c : Cls) (a : Str) : List (PyType Cls) :=
  (fastkml.itemsOf c).flatMap fun it => if it.attr = a then it.classes else []

/-- A program: a placemark in two folders, one made from a list that is changed later; a
document; the placemark is renamed afterwards.  Objects: 0 placemark, 1 and 2 folders,
3 document; list 0 is the caller's. -/
def twoFolders : List (Act Fix) := [
  .list (.objs [.cls .Placemark]) (.objs []),
  .make .Placemark none [] [(s% "name", .val (.str (s% "old")))],
  .change 0 (.objs [0]),
  .make .Folder none [] [(s% "features", .list 0)],
  .make .Folder none [] [(s% "name", .val (.str (s% "second")))],
  .append 2 0,
  .make .Document none [] [(s% "id", .val (.str (s% "d")))],
  .append 3 1,
  .append 3 2,
  .assign 0 (s% "name") (.val (.str (s% "new"))),
  .change 0 (.objs [])]

/-- The store after it. -/
def afterTwo : Store Fix := Store.run .empty 100 twoFolders

theorem afterTwo_history : History 100 afterTwo := history_run .start (by decide +kernel)

theorem afterTwo_tame : TameSteps 100 .empty afterTwo := tame_run .refl (by decide +kernel) (by decide +kernel)

/-- The names of the placemarks found at a depth. -/
def namesIn (x : Except Halt Xml) (path : List Str) : List (Option Str) :=
  match x with
  | .error _ => []
  | .ok e => ((path.foldl (fun es p => es.flatMap fun e => e.findall (kmlNs ++ p)) [e]).map fun e =>
      (e.find (kmlNs ++ s% "name")).bind Xml.text)

theorem free_of_view {h : Store F} {m r : Nat} {v : Val Cls F} (hv : h.view m r = some v) : Free h r := by
  refine Classical.byContradiction fun hf => ?_
  rw [view_not_free hf m] at hv
  cases hv

/-- There is a value. -/
theorem some_of_isSome {α : Type} {x : Option α} (h : x.isSome = true) : ∃ v, x = some v := Option.isSome_iff_exists.mp h

/-- The step raises no exception. -/
def stepsB (h : Store F) (n : Nat) (op : Act F) : Bool :=
  match h.step n op with
  | .ok _ => true
  | .error _ => false

theorem step_next {h : Store F} {n : Nat} {op : Act F} (hb : stepsB h n op = true) : h.step n op = .ok (h.next n op) := by
  simp only [stepsB] at hb
  simp only [Store.next]
  split at hb
  · rename_i e; rw [e]
  · cases hb

/-- C64_typed, C64_writes: the document and all below it can be written. -/
example : History 100 afterTwo ∧ (∃ v, afterTwo.view 100 3 = some v) ∧ 3 < afterTwo.objs.length ∧
    (∀ s, s = 3 ∨ Beneath afterTwo s 3 → ¬ Beneath afterTwo s s) ∧ afterTwo.objs.length ≤ 100 := by
  have hv : ∃ v, afterTwo.view 100 3 = some v := some_of_isSome (by decide +kernel)
  exact ⟨afterTwo_history, hv, by decide +kernel, free_of_view hv.choose_spec, by decide +kernel⟩

/-- The new name is seen in both folders, and in the document; the caller's list, emptied
afterwards, is not the folder's. -/
example : namesIn (afterTwo.write 100 ⟨none, .normal⟩ 1) [s% "Placemark"] = [some (s% "new")] ∧
    namesIn (afterTwo.write 100 ⟨none, .normal⟩ 2) [s% "Placemark"] = [some (s% "new")] ∧
    namesIn (afterTwo.write 100 ⟨none, .normal⟩ 3) [s% "Folder", s% "Placemark"] = [some (s% "new"), some (s% "new")] := by
  decide +kernel

/-- Decides `HoldsObj`. -/
def holdsB (h : Store F) (r s : Nat) : Bool :=
  match h.objs[r]? with
  | none => false
  | some b => b.attrs.any fun p => visible b.cls p.1 && match p.2 with
    | .obj t => decide (t = s)
    | .list l => match h.lists[l]? with
      | some (_, .objs rs) => decide (s ∈ rs)
      | _ => false
    | .val _ => false

theorem holdsB_iff {h : Store F} {r s : Nat} : holdsB h r s = true ↔ HoldsObj h r s := by
  constructor
  · intro hb
    simp only [holdsB] at hb
    split at hb
    · cases hb
    · rename_i b hr
      obtain ⟨⟨a, x⟩, hm, hb⟩ := List.any_eq_true.mp hb
      simp only [Bool.and_eq_true] at hb
      refine ⟨b, a, x, hr, hm, hb.1, ?_⟩
      have hb := hb.2
      cases x with
      | val v => cases hb
      | obj t => exact Or.inl (by rw [of_decide_eq_true hb])
      | list l =>
        simp only at hb
        split at hb
        · rename_i t rs hl; exact Or.inr ⟨l, t, rs, rfl, hl, of_decide_eq_true hb⟩
        · cases hb
  · rintro ⟨b, a, x, hr, hm, hv, hx⟩
    simp only [holdsB, hr]
    refine List.any_eq_true.mpr ⟨_, hm, ?_⟩
    simp only [Bool.and_eq_true]
    refine ⟨hv, ?_⟩
    rcases hx with rfl | ⟨l, t, rs, rfl, hl, hs⟩
    · simp
    · simp [hl, hs]

/-- A set of objects with all that they hold. -/
def closedB (h : Store F) (l : List Nat) : Bool :=
  l.all fun r => (List.range h.objs.length).all fun s => !holdsB h r s || decide (s ∈ l)

theorem closed_below {h : Store F} (hw : WT h) {l : List Nat} (hl : closedB h l = true) {r s : Nat} (hb : Beneath h s r)
    (hr : r ∈ l) : s ∈ l := by
  have key : ∀ {r s}, HoldsObj h r s → r ∈ l → s ∈ l := by
    intro r s hs hr
    have h1 := List.all_eq_true.mp (List.all_eq_true.mp hl r hr) s (List.mem_range.mpr (holds_lt hw hs))
    simp only [holdsB_iff.mpr hs, Bool.not_true, Bool.false_or, decide_eq_true_eq] at h1
    exact h1
  induction hb with
  | held hs => exact key hs hr
  | deeper hs _ ih => exact ih (key hs hr)

/-- Decides `HoldsList`. -/
def holdsListB (h : Store F) (r l : Nat) : Bool :=
  match h.objs[r]? with
  | none => false
  | some b => b.attrs.any fun p => visible b.cls p.1 && match p.2 with
    | .list k => decide (k = l)
    | _ => false

theorem holdsListB_of {h : Store F} {r l : Nat} (hl : HoldsList h r l) : holdsListB h r l = true := by
  obtain ⟨b, a, hr, hm, hv⟩ := hl
  simp only [holdsListB, hr]
  exact List.any_eq_true.mpr ⟨_, hm, by simp [hv]⟩

/-- C64_cycle: a folder in a document in the folder. -/
def loopProg : List (Act Fix) := [
  .make .Folder none [] [],
  .make .Document none [] [],
  .append 1 0,
  .append 0 1,
  .make .KML none [] [],
  .append 2 1]

def afterLoop : Store Fix := Store.run .empty 100 loopProg

example : History 100 afterLoop ∧ Beneath afterLoop 0 2 ∧ Beneath afterLoop 0 0 := by
  have h10 : HoldsObj afterLoop 1 0 := holdsB_iff.mp (by decide +kernel)
  have h01 : HoldsObj afterLoop 0 1 := holdsB_iff.mp (by decide +kernel)
  have h21 : HoldsObj afterLoop 2 1 := holdsB_iff.mp (by decide +kernel)
  exact ⟨history_run .start (by decide +kernel), .deeper h21 (.held h10), .deeper h01 (.held h10)⟩

/-- Whatever the limit, writing the `KML` object fails. -/
example (m : Nat) (o : Opts) : afterLoop.write m o 2 = .error .recursion := by
  have h10 : HoldsObj afterLoop 1 0 := holdsB_iff.mp (by decide +kernel)
  have h01 : HoldsObj afterLoop 0 1 := holdsB_iff.mp (by decide +kernel)
  have h21 : HoldsObj afterLoop 2 1 := holdsB_iff.mp (by decide +kernel)
  exact C64_cycle (Or.inr (.deeper h21 (.held h10))) (.deeper h01 (.held h10)) m o

/-- C64_make: a folder constructed from a list with a placemark; a schema without `id`. -/
def beforeFolder : Store Fix := Store.run .empty 100 (twoFolders.take 3)

example : actOk beforeFolder (.make .Folder none [] [(s% "features", .list 0)]) ∧
    (∃ vs, optAll (beforeFolder.attrValue (beforeFolder.view 100)) [(s% "features", .list 0)] = some vs) ∧
    (∃ h', beforeFolder.step 100 (.make .Folder none [] [(s% "features", .list 0)]) = .ok h') :=
  ⟨actOkB_sound (by decide +kernel), some_of_isSome (by decide +kernel), _, step_next (by decide +kernel)⟩

example : actOk beforeFolder (.make .Schema none [] []) ∧
    (∃ vs, optAll (beforeFolder.attrValue (beforeFolder.view 100)) [] = some vs) ∧
    (∃ e, beforeFolder.step 100 (.make .Schema none [] []) = .error e) :=
  ⟨actOkB_sound (by decide +kernel), some_of_isSome (by decide +kernel), .raised .schemaError, rfl⟩

/-- C64_read: a point. -/
example : History 100 afterTwo ∧ (∃ v : Val Cls Fix, parse fastkml true pointDoc .Point kmlNs [] = .ok v) ∧
    ∀ d, Sub pointDoc d → ¬ BadTuple Fix d := ⟨afterTwo_history, pointDoc_read, pointDoc_tuples⟩

/-- C64_assign, C64_append: the last assignment and the last `append` of `twoFolders`. -/
def beforeName : Store Fix := Store.run .empty 100 (twoFolders.take 9)

def beforeAppend : Store Fix := Store.run .empty 100 (twoFolders.take 8)

example : ∃ h' c ns nss as, beforeName.step 100 (.assign 0 (s% "name") (.val (.str (s% "new")))) = .ok h' ∧
    h'.view 100 0 = some (.obj c ns nss as) ∧ visible c (s% "name") = true := by
  have hv : ∃ v, (beforeName.next 100 (.assign 0 (s% "name") (.val (.str (s% "new"))))).view 100 0 = some v :=
    some_of_isSome (by decide +kernel)
  obtain ⟨v, hv⟩ := hv
  obtain ⟨b, as, hb, _, rfl⟩ := view_obj hv
  refine ⟨_, _, _, _, _, step_next (by decide +kernel), hv, ?_⟩
  have : ((beforeName.next 100 (.assign 0 (s% "name") (.val (.str (s% "new"))))).objs[0]?.map (·.cls)) = some .Placemark := by
    decide +kernel
  rw [hb] at this
  rw [show b.cls = .Placemark from Option.some.inj this]
  decide +kernel

example : ∃ h' c ns nss as, beforeAppend.step 100 (.append 3 2) = .ok h' ∧ h'.view 100 3 = some (.obj c ns nss as) := by
  have hv : ∃ v, (beforeAppend.next 100 (.append 3 2)).view 100 3 = some v := some_of_isSome (by decide +kernel)
  obtain ⟨v, hv⟩ := hv
  obtain ⟨b, as, hb, _, rfl⟩ := view_obj hv
  exact ⟨_, _, _, _, _, step_next (by decide +kernel), hv⟩

/-- C64_append_self: the document of `twoFolders`. -/
example : ∃ b, afterTwo.objs[3]? = some b ∧ (b.cls = .Document ∨ b.cls = .Folder) := by
  have h : afterTwo.objs[3]?.map (·.cls) = some .Document := by decide +kernel
  obtain ⟨b, hb, hc⟩ := Option.map_eq_some_iff.mp h
  exact ⟨b, hb, Or.inl hc⟩

/-- C65_new: constructing the second folder of `twoFolders` with the first placemark. -/
example : History 100 beforeFolder ∧ actOk beforeFolder (.make .Folder none [] [(s% "features", .list 0)]) ∧
    beforeFolder.step 100 (.make .Folder none [] [(s% "features", .list 0)]) =
      .ok (beforeFolder.next 100 (.make .Folder none [] [(s% "features", .list 0)])) ∧ 0 < beforeFolder.objs.length :=
  ⟨history_run .start (by decide +kernel), actOkB_sound (by decide +kernel), step_next (by decide +kernel), by decide +kernel⟩

/-- C65_assign, C65_append: while the second folder is empty, the placemark of the first
is renamed, and another appended to the first. -/
def oneEmpty : Store Fix := Store.run .empty 100 (twoFolders.take 5 ++ [.make .Placemark none [] []])

theorem oneEmpty_history : History 100 oneEmpty := history_run .start (by decide +kernel)

example : oneEmpty.step 100 (.assign 0 (s% "name") (.val (.str (s% "new")))) =
      .ok (oneEmpty.next 100 (.assign 0 (s% "name") (.val (.str (s% "new"))))) ∧ 2 ≠ 0 ∧ ¬ Beneath oneEmpty 0 2 ∧ Beneath oneEmpty 0 1 :=
  ⟨step_next (by decide +kernel), by decide,
    fun h => absurd (closed_below (history_wt oneEmpty_history) (l := [2]) (by decide +kernel) h (by decide)) (by decide),
    .held (holdsB_iff.mp (by decide +kernel))⟩

example : TameSteps 100 .empty oneEmpty ∧ oneEmpty.step 100 (.append 1 3) = .ok (oneEmpty.next 100 (.append 1 3)) ∧
    2 ≠ 1 ∧ ¬ Beneath oneEmpty 1 2 :=
  ⟨tame_run .refl (by decide +kernel) (by decide +kernel), step_next (by decide +kernel), by decide,
    fun h => absurd (closed_below (history_wt oneEmpty_history) (l := [2]) (by decide +kernel) h (by decide)) (by decide)⟩

/-- C65_change: the caller's list is in no object. -/
example : beforeName.step 100 (.change 0 (.objs [])) = .ok (beforeName.next 100 (.change 0 (.objs []))) ∧
    ∀ s, s = 3 ∨ Beneath beforeName s 3 → ¬ HoldsList beforeName s 0 := by
  refine ⟨step_next (by decide +kernel), fun s hs hh => ?_⟩
  have hlt : s < beforeName.objs.length := by
    obtain ⟨b, _, hb, _⟩ := hh
    exact (List.getElem?_eq_some_iff.mp hb).1
  have : (List.range beforeName.objs.length).all (fun s => !holdsListB beforeName s 0) = true := by decide +kernel
  have := List.all_eq_true.mp this s (List.mem_range.mpr hlt)
  rw [holdsListB_of hh] at this
  cases this

/-- C65_copies: the list of features of the first folder of `twoFolders` is new. -/
example : ∃ l, HoldsList (beforeFolder.next 100 (.make .Folder none [] [(s% "features", .list 0)])) beforeFolder.objs.length l := by
  obtain ⟨b, hb⟩ : ∃ b, (beforeFolder.next 100 (.make .Folder none [] [(s% "features", .list 0)])).objs[beforeFolder.objs.length]? = some b :=
    some_of_isSome (by decide +kernel)
  have h1 : (b.attrs.any fun p => visible b.cls p.1 && match p.2 with | .list _ => true | _ => false) = true := by
    have : ((beforeFolder.next 100 (.make .Folder none [] [(s% "features", .list 0)])).objs[beforeFolder.objs.length]?.map
      fun b => b.attrs.any fun p => visible b.cls p.1 && match p.2 with | .list _ => true | _ => false) = some true := by decide +kernel
    rw [hb] at this
    exact Option.some.inj this
  obtain ⟨⟨a, x⟩, hm, hx⟩ := List.any_eq_true.mp h1
  simp only [Bool.and_eq_true] at hx
  cases x with
  | list l => exact ⟨l, b, a, hb, hm, hx.1⟩
  | _ => cases hx.2

/-- C65_callers_lists: `twoFolders`, whose last step changes the list made first. -/
def firstList : Act Fix := .list (.objs [.cls .Placemark]) (.objs [])

def beforeChange : Store Fix := Store.run .empty 100 (twoFolders.take 10)

example : TameSteps 100 (.empty : Store Fix) .empty ∧ actOk .empty firstList ∧
    Store.step .empty 100 firstList = .ok (Store.next .empty 100 firstList) ∧
    TameSteps 100 (Store.next .empty 100 firstList) beforeChange ∧
    beforeChange.step 100 (.change 0 (.objs [])) = .ok afterTwo :=
  ⟨.refl, actOkB_sound (by decide +kernel), rfl,
    tame_run (ops := (twoFolders.drop 1).take 9) (h' := Store.next .empty 100 firstList) .refl (by decide +kernel) (by decide +kernel),
    step_next (h := beforeChange) (n := 100) (op := .change 0 (.objs [])) (by decide +kernel)⟩

/-- A program: `Coordinates` constructed from a list, which is then changed. -/
def aliasProg : List (Act Fix) := [
  .list .coords (.coords [[fx 1, fx 2]]),
  .make .Coordinates none [] [(s% "coords", .list 0)],
  .change 0 (.coords [[fx 3, fx 4], [fx 5, fx 6]])]

/-- **C65**, disagreement: `Coordinates(coords=l)` keeps the caller's list `l`, unless it
is empty; every other constructor copies.  Changing `l` later changes the object. -/
theorem C65_coordinates_alias : ∃ (h : Store Fix) (l : Cells Fix), History 100 h ∧ actOk h (.change 0 l) ∧
    h.view 100 0 ≠ (h.next 100 (.change 0 l)).view 100 0 := by
  refine ⟨Store.run .empty 100 (aliasProg.take 2), .coords [[fx 3, fx 4], [fx 5, fx 6]],
    history_run .start (by decide +kernel), actOkB_sound (by decide +kernel), ?_⟩
  decide +kernel

/-- A program: one list is assigned to two folders. -/
def sharedProg : List (Act Fix) := [
  .list (.objs (classesOf .Folder (s% "features"))) (.objs []),
  .make .Folder none [] [],
  .make .Folder none [] [],
  .make .Placemark none [] [],
  .assign 0 (s% "features") (.list 0),
  .assign 1 (s% "features") (.list 0)]

/-- **C65**, disagreement: an assigned list is not copied, so two folders can have one
list of features: what is appended to one is then in the other. -/
theorem C65_assigned_shared : ∃ h : Store Fix, History 100 h ∧ actOk h (.append 0 2) ∧ ¬ Beneath h 0 1 ∧
    h.view 100 1 ≠ (h.next 100 (.append 0 2)).view 100 1 := by
  have hh : History 100 (Store.run .empty 100 sharedProg) := history_run .start (by decide +kernel)
  refine ⟨_, hh, actOkB_sound (by decide +kernel),
    fun h => absurd (closed_below (history_wt hh) (l := [1]) (by decide +kernel) h (by decide)) (by decide), ?_⟩
  decide +kernel

end Verif
