import Verif.Spec.Accepted
import Verif.Lemmas.Content
import Verif.Lemmas.Reading
import Verif.Lemmas.ReadTyped

/-!
# What the schemas declare is what the readers expect
-/

set_option linter.unusedSectionVars false
set_option linter.unusedSimpArgs false

namespace Verif

open Spec

variable {F : Type} [PyExt F]

/-- Whatever the item finds among the declared children and XML attributes is of the kind
it expects. -/
def expects (c : Cls) (T : QN) (it : Item Cls) : Bool :=
  match place it.get with
  | .child => (partsOf 8 T).all fun p => p.elems.all fun x => !hasQN (qnsIn it it.node) x.1 || match x.2 with
    | none => true
    | some t => decide (classFor x.1 = none) && !hasQN (unsupported c) x.1 && !hasQN (rowNames c) x.1 &&
        kindFits it (kindOf c x.1.name (some t))
  | .attr => decide (it.get = .attrText) || (typeAttrs 8 T).any fun a => sameStr a.name it.node &&
      !(unsupportedAttrs c).any (sameStr a.name) && kindFits it (kindOf c a.name a.type)
  | .object | .objects => (clsList it).all fun d => (partsOf 8 T).all fun p => p.elems.all fun x =>
      !hasQN (qnsIn it (fastkml.info d).tag) x.1 || match x.2 with
      | none => true
      | some t => decide (classFor x.1 = some d) && hasQN (typesOf d) t && !hasQN (unsupported c) x.1 &&
          !hasQN (rowNames c) x.1
  | .children => decide (c = .Track)
  | .text => decide (it.get = .nodeText) || decide (c = .Coordinates)

set_option maxRecDepth 10000 in
theorem fastkml_expects {c : Cls} {T : QN} (h : T ∈ typesOf c) : ∀ it ∈ fastkml.itemsOf c, expects c T it = true := by
  have key : ∀ c ∈ Cls.all, ((typesOf c).all fun T => (fastkml.itemsOf c).all (expects c T)) = true := by decide +kernel
  exact List.all_eq_true.mp (List.all_eq_true.mp (key c (Cls.mem_all c)) T h)

/-- The rows of a track are declared in one namespace each. -/
def rowDeclared (x : Typed) (n : Str) (q : QN) : Bool := !sameStr x.1.name n || x.1.same q

/-- What the readers of rows look for. -/
def rowReader (it : Item Cls) : Bool :=
  match place it.get with
  | .children =>
    (decide (it.get = .subDtList) && sameStr it.node (s% "when") && sameStr it.attr (s% "whens")) ||
    (decide (it.get = .coordsList) && sameStr it.node (s% "coord") && sameStr it.attr (s% "coords")) ||
    (decide (it.get = .coordsList) && sameStr it.node (s% "angles") && sameStr it.attr (s% "angles"))
  | _ => true

theorem rows_declared {T : QN} (h : T ∈ typesOf .Track) {p : Part} (hp : p ∈ partsOf 8 T) {x : Typed} (hx : x ∈ p.elems) :
    (x.1.name = s% "when" → x.1 = .q .kml (s% "when")) ∧ (x.1.name = s% "coord" → x.1 = .q .gx (s% "coord")) ∧
    (x.1.name = s% "angles" → x.1 = .q .gx (s% "angles")) := by
  have key : ((typesOf .Track).all fun T => (partsOf 8 T).all fun p => p.elems.all fun x =>
      rowDeclared x (s% "when") (.q .kml (s% "when")) && rowDeclared x (s% "coord") (.q .gx (s% "coord")) &&
      rowDeclared x (s% "angles") (.q .gx (s% "angles"))) = true := by decide +kernel
  have := List.all_eq_true.mp (List.all_eq_true.mp (List.all_eq_true.mp key T h) p hp) x hx
  simp only [rowDeclared, Bool.and_eq_true, Bool.or_eq_true, Bool.not_eq_true'] at this
  obtain ⟨⟨h1, h2⟩, h3⟩ := this
  refine ⟨fun h => ?_, fun h => ?_, fun h => ?_⟩
  · rcases h1 with h1 | h1
    · rw [sameStr_iff.mpr h] at h1; cases h1
    · exact QN.same_iff.mp h1
  · rcases h2 with h1 | h1
    · rw [sameStr_iff.mpr h] at h1; cases h1
    · exact QN.same_iff.mp h1
  · rcases h3 with h1 | h1
    · rw [sameStr_iff.mpr h] at h1; cases h1
    · exact QN.same_iff.mp h1

theorem rows_readers {it : Item Cls} (hit : it ∈ fastkml.itemsOf .Track) (hp : place it.get = .children) :
    (it.get = .subDtList ∧ it.node = s% "when" ∧ it.attr = s% "whens") ∨
    (it.get = .coordsList ∧ it.node = s% "coord" ∧ it.attr = s% "coords") ∨
    (it.get = .coordsList ∧ it.node = s% "angles" ∧ it.attr = s% "angles") := by
  have key : (fastkml.itemsOf .Track).all rowReader = true := by decide +kernel
  have := List.all_eq_true.mp key it hit
  simp only [rowReader, hp, Bool.or_eq_true, Bool.and_eq_true, decide_eq_true_eq, sameStr_iff] at this
  rcases this with (⟨⟨a, b⟩, c⟩ | ⟨⟨a, b⟩, c⟩) | ⟨⟨a, b⟩, c⟩
  · exact .inl ⟨a, b, c⟩
  · exact .inr (.inl ⟨a, b, c⟩)
  · exact .inr (.inr ⟨a, b, c⟩)

/-! ## Reading succeeds -/

theorem fitKids_map (R : TextRule) (ks : List Xml) : fitKids F R ks = ks.map fun k => (k, fun c T => Fit F R k c T) := by
  induction ks with
  | nil => rfl
  | cons k ks ih => rw [fitKids, ih]; rfl

theorem fit_iff {R : TextRule} {e : Xml} {c : Cls} {T : QN} : Fit F R e c T ↔ FitStep F R c T e (fitKids F R e.kids) := by
  cases e
  rw [Fit]
  rfl

theorem denotes_reads {it : Item Cls} {K : Kind} (hk : kindFits it K = true) {s : Str} (hr : Reads F K s) :
    ∃ v : Val Cls F, denotes true it s = some v := by
  cases K with
  | text =>
    simp only [kindFits, decide_eq_true_eq] at hk
    rcases hk with hk | hk | hk <;> exact ⟨.str s, by simp [denotes, hk]⟩
  | bool =>
    simp only [kindFits, decide_eq_true_eq] at hk
    simp only [Reads, List.mem_cons, List.not_mem_nil, or_false] at hr
    simp only [denotes, hk]
    rcases hr with rfl | rfl | rfl | rfl <;> exact ⟨_, by simp [getBooleanValue]; rfl⟩
  | int =>
    obtain ⟨i, hi⟩ := hr
    simp only [kindFits, decide_eq_true_eq] at hk
    rcases hk with hk | hk <;> exact ⟨.int i, by simp [denotes, hk, hi]⟩
  | float =>
    obtain ⟨i, hi⟩ := hr
    simp only [kindFits, decide_eq_true_eq] at hk
    rcases hk with hk | hk <;> exact ⟨.float i, by simp [denotes, hk, hi]⟩
  | time =>
    obtain ⟨i, hi⟩ := hr
    simp only [kindFits, decide_eq_true_eq] at hk
    exact ⟨.dt i, by simp [denotes, hk, hi]⟩
  | choice l =>
    simp only [Reads] at hr
    simp only [kindFits, Bool.and_eq_true, decide_eq_true_eq] at hk
    obtain ⟨hg, hc⟩ := hk
    split at hc
    · rename_i e he
      obtain ⟨z, hz, heq⟩ := List.any_eq_true.mp (List.all_eq_true.mp hc s hr)
      have hs : s ∈ e.values := by rw [sameStr_iff.mp heq]; exact hz
      refine ⟨.enum e s, ?_⟩
      have : getEnumValue e s true = some s := by
        simp [getEnumValue, enumCall, hs]
      rcases hg with hg | hg <;> simp [denotes, hg, he, this]
    · cases hc

theorem scalar_ok {it : Item Cls} (hs : scalar it.get = true) (hc : classesOk it = true) {ns : Str} {N : NsMap} {e : Xml}
    (kids : List (Kid Cls F)) (h : ∀ s, itemText it ns e = some s → ∃ v : Val Cls F, denotes true it s = some v) :
    ∃ o, getKwarg fastkml it true ns N e kids = .ok o := by
  rw [getKwarg_scalar hs hc]
  cases ht : itemText it ns e with
  | none => exact ⟨none, rfl⟩
  | some s =>
    obtain ⟨v, hv⟩ := h s ht
    exact ⟨some v, by simp [scalarResult, hv]⟩

theorem readAll_ok_of {c : Cls} {ns : Str} {N : NsMap} {ks : List (Kid Cls F)} (h : ∀ k ∈ ks, ∃ v, k.read c ns N = .ok v) :
    ∃ vs, readAll c ns N ks = .ok vs := by
  cases hr : readAll c ns N ks with
  | ok vs => exact ⟨vs, rfl⟩
  | error x =>
    obtain ⟨k, hk, he⟩ := readAll_error hr
    obtain ⟨v, hv⟩ := h k hk
    rw [hv] at he; cases he

theorem getXmlSub_ok_of {kids : List (Kid Cls F)} {ns : Str} {N : NsMap} {cs : List (PyType Cls)}
    (hcs : ∀ t ∈ cs, ∃ c, t = .cls c)
    (h : ∀ k ∈ kids, ∀ d, .cls d ∈ cs → k.tag = ns ++ (fastkml.info d).tag → ∃ v, k.read d ns N = .ok v) :
    ∃ o, getXmlSub fastkml kids ns N cs = .ok o := by
  induction cs with
  | nil => exact ⟨none, rfl⟩
  | cons t cs ih =>
    obtain ⟨d, rfl⟩ := hcs t (by simp)
    simp only [getXmlSub]
    cases hf : kids.find? (fun k => decide (k.tag = ns ++ (fastkml.info d).tag)) with
    | none => exact ih (fun t ht => hcs t (by simp [ht])) fun k hk d' hd' ht => h k hk d' (by simp [hd']) ht
    | some k =>
      obtain ⟨v, hv⟩ := h k (List.mem_of_find?_eq_some hf) d (by simp) (by simpa using List.find?_some hf)
      exact ⟨some v, by simp [hv]⟩

theorem getXmlSubList_ok_of {kids : List (Kid Cls F)} {ns : Str} {N : NsMap} {cs : List (PyType Cls)}
    (hcs : ∀ t ∈ cs, ∃ c, t = .cls c)
    (h : ∀ k ∈ kids, ∀ d, .cls d ∈ cs → k.tag = ns ++ (fastkml.info d).tag → ∃ v, k.read d ns N = .ok v) :
    ∃ o, getXmlSubList fastkml kids ns N cs = .ok o := by
  induction cs with
  | nil => exact ⟨[], rfl⟩
  | cons t cs ih =>
    obtain ⟨d, rfl⟩ := hcs t (by simp)
    obtain ⟨vs, hvs⟩ := readAll_ok_of (c := d) (ns := ns) (N := N)
      (ks := kids.filter fun k => decide (k.tag = ns ++ (fastkml.info d).tag)) (by
        intro k hk
        obtain ⟨h1, h2⟩ := List.mem_filter.mp hk
        exact h k h1 d (by simp) (by simpa using h2))
    obtain ⟨ws, hws⟩ := ih (fun t ht => hcs t (by simp [ht])) fun k hk d' hd' ht => h k hk d' (by simp [hd']) ht
    exact ⟨vs ++ ws, by simp [getXmlSubList, hvs, hws]⟩

theorem getDts_ok_of {l : List Xml} (h : ∀ k ∈ l, ∃ s, k.text = some s ∧ Reads F .time s) :
    ∃ ws, getDts (PyExt.arrowGet F) true l = .ok ws ∧ ws.length = l.length := by
  induction l with
  | nil => exact ⟨[], rfl, rfl⟩
  | cons k l ih =>
    obtain ⟨s, hs, d, hd⟩ := h k (by simp)
    obtain ⟨ws, hws, hl⟩ := ih fun k hk => h k (by simp [hk])
    exact ⟨some d :: ws, by simp [getDts, hs, hd, hws], by simp [hl]⟩

theorem getCoordArgs_ok_of {P : Pt F → Prop} {l : List Xml}
    (h : ∀ k ∈ l, ∀ s, k.text = some s → ∃ p : Pt F, floatsOf (splitWs s) = some p ∧ P p) :
    ∃ cs : List (Pt F), getCoordArgs true l = .ok cs ∧ cs.length ≤ l.length ∧ ∀ c ∈ cs, P c := by
  induction l with
  | nil => exact ⟨[], rfl, by simp, by simp⟩
  | cons k l ih =>
    obtain ⟨cs, hcs, hl, hP⟩ := ih fun k hk => h k (by simp [hk])
    simp only [getCoordArgs]
    cases ht : k.text with
    | none => exact ⟨cs, hcs, by simp; omega, hP⟩
    | some s =>
      obtain ⟨p, hp, hpp⟩ := h k (by simp) s ht
      by_cases he : s.isEmpty = true
      · exact ⟨cs, by simp [he, hcs], by simp; omega, hP⟩
      · refine ⟨p :: cs, by simp [he, hp, hcs], by simp; omega, ?_⟩
        intro c hc
        rcases List.mem_cons.mp hc with rfl | hc
        · exact hpp
        · exact hP c hc

theorem getCoordArgs_ok_all {P : Pt F → Prop} (hP0 : ¬ P []) {l : List Xml}
    (h : ∀ k ∈ l, ∃ s, k.text = some s ∧ ∃ p : Pt F, floatsOf (splitWs s) = some p ∧ P p) :
    ∃ cs : List (Pt F), getCoordArgs true l = .ok cs ∧ cs.length = l.length ∧ ∀ c ∈ cs, P c := by
  induction l with
  | nil => exact ⟨[], rfl, by simp, by simp⟩
  | cons k l ih =>
    obtain ⟨cs, hcs, hl, hP⟩ := ih fun k hk => h k (by simp [hk])
    obtain ⟨s, ht, p, hp, hpp⟩ := h k (by simp)
    have he : s.isEmpty = false := by
      cases s with
      | nil =>
        have : (floatsOf (splitWs []) : Option (Pt F)) = some [] := rfl
        rw [this] at hp
        cases hp
        exact absurd hpp hP0
      | cons _ _ => rfl
    simp only [getCoordArgs, ht, he, Bool.false_eq_true, if_false, hp, hcs]
    refine ⟨p :: cs, rfl, by simp [hl], ?_⟩
    intro c hc
    rcases List.mem_cons.mp hc with rfl | hc
    · exact hpp
    · exact hP c hc

theorem orderedAll_get {qs : List Typed} {ks : List Xml} (h : OrderedAll qs ks) : ∀ k ∈ ks, ∃ q t, (q, some t) ∈ qs ∧
    k.tag = tagOf q ∧ Ordered t k := by
  induction ks generalizing qs with
  | nil => intro k hk; cases hk
  | cons k' ks ih =>
    intro k hk
    cases h with
    | cons hn hv h =>
      rcases List.mem_cons.mp hk with rfl | hk
      · exact ⟨_, _, List.mem_cons_self, hn, hv⟩
      · obtain ⟨q, t, hx, he⟩ := ih h k hk
        exact ⟨q, t, List.mem_cons_of_mem _ hx, he⟩

/-- Every child is declared. -/
theorem ordered_kid {T : QN} {e : Xml} (h : Ordered T e) {k : Xml} (hk : k ∈ e.kids) :
    ∃ q t, k.tag = tagOf q ∧ (∃ p ∈ partsOf 8 T, (q, some t) ∈ p.elems) ∧ Ordered t k := by
  cases h with
  | simple hs hk' => rw [hk'] at hk; cases hk
  | complex hs hq ha =>
    obtain ⟨q, t, hm, ht, ho⟩ := orderedAll_get ha k hk
    obtain ⟨p, hp, hx⟩ := accepts_mem hq _ hm
    exact ⟨q, t, ht, ⟨p, hp, hx⟩, ho⟩

end Verif
