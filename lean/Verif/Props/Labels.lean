import Verif.Spec.Labels
import Verif.Props.Said
import Verif.Lemmas.Names
import Verif.Props.Find
import Verif.Props.Ordinary

set_option linter.unusedSectionVars false
set_option linter.unusedSimpArgs false

/-!
# C78: reading and saving do not multiply elements or identifiers
-/

namespace Verif

open Spec

variable {F : Type} [PyExt F]

/-- The sum of a function over labels. -/
def total (f : Str → List Str → Nat) (l : List (Str × List Str)) : Nat := (l.map fun p => f p.1 p.2).sum

theorem total_append (f : Str → List Str → Nat) (l m : List (Str × List Str)) : total f (l ++ m) = total f l + total f m := by
  simp [total]

theorem total_cons (f : Str → List Str → Nat) (p : Str × List Str) (l : List (Str × List Str)) :
    total f (p :: l) = f p.1 p.2 + total f l := by simp [total]

theorem total_labelsAll (f : Str → List Str → Nat) (u : Str) (ks : List Xml) :
    total f (labelsAll u ks) = (ks.map fun k => total f (labels u k)).sum := by
  induction ks with
  | nil => rfl
  | cons k ks ih => simp [labelsAll, total_append, ih]

theorem total_objectsIn (f : Str → List Str → Nat) (l : List (Str × Val Cls F)) :
    total f (objectsIn l) = (l.map fun p => total f (objects p.2)).sum := by
  induction l with
  | nil => rfl
  | cons p l ih => obtain ⟨a, v⟩ := p; simp [objectsIn, total_append, ih]

theorem total_objectsAll (f : Str → List Str → Nat) (l : List (Val Cls F)) :
    total f (objectsAll l) = (l.map fun v => total f (objects v)).sum := by
  induction l with
  | nil => rfl
  | cons v l ih => simp [objectsAll, total_append, ih]

/-! ## Sums -/

theorem sum_le {α : Type} {f g : α → Nat} {l : List α} (h : ∀ a ∈ l, f a ≤ g a) : (l.map f).sum ≤ (l.map g).sum := by
  induction l with
  | nil => exact Nat.le_refl _
  | cons a l ih =>
    simp only [List.map_cons, List.sum_cons]
    exact Nat.add_le_add (h a List.mem_cons_self) (ih fun x hx => h x (List.mem_cons_of_mem _ hx))

theorem le_sum {α : Type} {f : α → Nat} {l : List α} {a : α} (h : a ∈ l) : f a ≤ (l.map f).sum := by
  induction l with
  | nil => cases h
  | cons b l ih =>
    simp only [List.map_cons, List.sum_cons]
    rcases List.mem_cons.mp h with rfl | h
    · exact Nat.le_add_right _ _
    · exact Nat.le_trans (ih h) (Nat.le_add_left _ _)

theorem sum_filter_le {α : Type} {f : α → Nat} {p : α → Bool} {l : List α} : ((l.filter p).map f).sum ≤ (l.map f).sum := by
  induction l with
  | nil => exact Nat.le_refl _
  | cons a l ih =>
    rw [List.filter_cons]
    split <;> simp only [List.map_cons, List.sum_cons] <;> omega

theorem sum_add {α : Type} {f g : α → Nat} {l : List α} : (l.map fun a => f a + g a).sum = (l.map f).sum + (l.map g).sum := by
  induction l with
  | nil => rfl
  | cons a l ih => simp only [List.map_cons, List.sum_cons, ih]; omega

/-- The arguments that are stored, and the others. -/
theorem sum_stored {g : Val Cls F → Nat} (h0 : g .none = 0) {ks : List Str} (hn : ks.Nodup) (kw : List (Str × Val Cls F)) :
    (ks.map fun a => g (kwGet a kw)).sum + ((kw.filter fun p => decide (p.1 ∉ ks)).map fun p => g p.2).sum ≤
      (kw.map fun p => g p.2).sum := by
  induction kw with
  | nil =>
    have : (ks.map fun a => g (kwGet a [])).sum = 0 := by
      clear hn
      induction ks with
      | nil => rfl
      | cons a ks ih => simpa [kwGet, dget, h0] using ih
    simp [this]
  | cons p kw ih =>
    obtain ⟨k, v⟩ := p
    by_cases hk : k ∈ ks
    · have h1 : ∀ l : List Str, l.Nodup → (l.map fun a => g (kwGet a ((k, v) :: kw))).sum ≤ g v + (l.map fun a => g (kwGet a kw)).sum := by
        intro l
        induction l with
        | nil => intro _; simp
        | cons a l ihl =>
          intro hl
          rw [List.nodup_cons] at hl
          by_cases ha : k = a
          · have h2 : (l.map fun a => g (kwGet a ((k, v) :: kw))) = l.map fun a => g (kwGet a kw) := by
              refine List.map_congr_left fun b hb => ?_
              have : k ≠ b := fun h => hl.1 (ha ▸ h ▸ hb)
              simp [kwGet, dget, this]
            simp only [List.map_cons, List.sum_cons, h2]
            have : kwGet a ((k, v) :: kw) = v := by simp [kwGet, dget, ha]
            rw [this]
            omega
          · have : kwGet a ((k, v) :: kw) = kwGet a kw := by simp [kwGet, dget, ha]
            have := ihl hl.2
            simp only [List.map_cons, List.sum_cons]
            simp only [‹kwGet a ((k, v) :: kw) = kwGet a kw›]
            omega
      have := h1 ks hn
      simp only [List.filter_cons, hk, not_true, decide_false, Bool.false_eq_true, if_false, List.map_cons, List.sum_cons]
      omega
    · have h2 : (ks.map fun a => g (kwGet a ((k, v) :: kw))) = ks.map fun a => g (kwGet a kw) := by
        refine List.map_congr_left fun b hb => ?_
        have : k ≠ b := fun h => hk (h ▸ hb)
        simp [kwGet, dget, this]
      simp only [List.filter_cons, hk, not_false_eq_true, decide_true, if_true, List.map_cons, List.sum_cons, h2]
      omega

/-! ## Reading -/

theorem normalise_total {f : Str → List Str → Nat} {n : Norm} {v w : Val Cls F} (h : normalise fastkml n v = .ok w) :
    total f (objects w) ≤ total f (objects v) := by
  have e0 : ∀ {x : Val Cls F}, objects x = [] → total f (objects x) ≤ total f (objects v) := by
    intro x hx; rw [hx]; exact Nat.zero_le _
  cases n with
  | raw => cases h; exact Nat.le_refl _
  | clean =>
    cases v <;> simp only [normalise] at h <;> try (cases h)
    · exact Nat.le_refl _
    · split <;> exact Nat.le_refl _
  | orEmpty =>
    cases v <;> simp only [normalise] at h <;> try (cases h)
    · exact Nat.le_refl _
    · exact Nat.le_refl _
  | orNone =>
    simp only [normalise] at h
    split at h
    · cases h
    · cases h
      split
      · exact Nat.le_refl _
      · exact e0 rfl
  | listOr =>
    cases v <;> simp only [normalise] at h <;> try (cases h)
    · exact Nat.le_refl _
    · exact Nat.le_refl _
  | listNotNone =>
    cases v <;> simp only [normalise] at h <;> try (cases h)
    · exact Nat.le_refl _
    · exact Nat.le_refl _
  | listTruthy =>
    cases v <;> simp only [normalise] at h <;> try (cases h)
    · exact Nat.le_refl _
    · split at h
      · cases h
      · rename_i l' hl'
        cases h
        rw [keepTruthy_filter hl']
        show total f (objectsAll _) ≤ total f (objectsAll _)
        rw [total_objectsAll, total_objectsAll]
        exact sum_filter_le
  | coordsOr =>
    cases v <;> simp only [normalise] at h <;> try (cases h)
    · exact Nat.le_refl _
    · exact Nat.le_refl _

theorem fillSlots_total {f : Str → List Str → Nat} {kw : List (Str × Val Cls F)} {slots : List (Str × Norm)}
    {sl : List (Str × Val Cls F)} (h : fillSlots fastkml kw slots = .ok sl) :
    (sl.map fun p => total f (objects p.2)).sum ≤ ((slots.map Prod.fst).map fun a => total f (objects (kwGet a kw))).sum := by
  induction slots generalizing sl with
  | nil => cases h; exact Nat.le_refl _
  | cons s slots ih =>
    obtain ⟨a, n⟩ := s
    simp only [fillSlots] at h
    split at h
    · cases h
    · rename_i v hv
      split at h
      · cases h
      · rename_i vs hvs
        cases h
        simp only [List.map_cons, List.sum_cons]
        exact Nat.add_le_add (normalise_total hv) (ih hvs)

theorem special_objects {s : Special} {kw sp : List (Str × Val Cls F)} (h : specialInit fastkml s kw = .ok sp) :
    ∀ p ∈ sp, objects p.2 = [] ∧ p.1 = s% "track_items" := by
  unfold specialInit at h
  intro p hp
  split at h
  · split at h
    · cases h
    · split at h
      · cases h
      · cases h; cases hp
    · cases h
  · split at h
    · cases h
    · cases h
      rw [List.mem_singleton] at hp
      subst hp
      exact ⟨rfl, rfl⟩
  · split at h
    · cases h
    · cases h; cases hp
  · cases h; cases hp
  · cases h; cases hp

/-- The objects in the attributes of a new object are those in the arguments, each at most
once. -/
theorem construct_total {f : Str → List Str → Nat} {c : Cls} {ns : Str} {nss : NsMap} {kw : List (Str × Val Cls F)}
    {ns' : Str} {nss' : NsMap} {attrs : List (Str × Val Cls F)} (h : construct fastkml c ns nss kw = .ok (.obj c ns' nss' attrs)) :
    total f (objectsIn attrs) ≤ total f (objectsIn kw) := by
  obtain ⟨ex, sp, sl, hex, hsp, hsl, he⟩ := construct_ok h
  cases he
  rw [total_objectsIn, total_objectsIn, List.map_append, List.map_append, List.sum_append, List.sum_append]
  have h1 : (sp.map fun p => total f (objects p.2)).sum = 0 := by
    have := special_objects hsp
    clear hsp h hsl
    induction sp with
    | nil => rfl
    | cons p sp ih =>
      simp only [List.map_cons, List.sum_cons, (this p List.mem_cons_self).1, ih fun q hq => this q (List.mem_cons_of_mem _ hq)]
      rfl
  have hn := (fastkml_readOk c).known
  rw [List.nodup_append] at hn
  have h2 := sum_stored (g := fun v => total f (objects v)) rfl hn.2.1 kw
  have h3 := fillSlots_total (f := f) hsl
  have h4 : (ex.map fun p => total f (objects p.2)).sum ≤
      ((kw.filter fun p => decide (p.1 ∉ (fastkml.info c).slots.map Prod.fst)).map fun p => total f (objects p.2)).sum := by
    rw [hex]
    have : (kw.filter fun p => decide (p.1 ∉ specialArgs (fastkml.info c).special ++ (fastkml.info c).slots.map Prod.fst)) =
        (kw.filter fun p => decide (p.1 ∉ (fastkml.info c).slots.map Prod.fst)).filter fun p => decide (p.1 ∉ specialArgs (fastkml.info c).special) := by
      rw [List.filter_filter]
      refine List.filter_congr fun p _ => ?_
      simp only [List.mem_append, not_or]
      by_cases a1 : p.1 ∈ specialArgs (fastkml.info c).special <;> by_cases a2 : p.1 ∈ (fastkml.info c).slots.map Prod.fst <;> simp [a1, a2]
    rw [this]
    exact sum_filter_le
  omega

/-- The children that an attribute may hold, by name. -/
def share (f : Str → List Str → Nat) (u : Str) (names : List Str) (ks : List Xml) : Nat :=
  (ks.map fun k => if localName k.tag ∈ names then total f (labels u k) else 0).sum

/-- What is read from one child counts at most as much as the child. -/
def Counted (f : Str → List Str → Nat) (g : Val Cls F → Nat) (u : Str) (N : NsMap) (strict : Bool) (k : Xml) : Prop :=
  ∀ (d : Cls) (ns : Str) (w : Val Cls F), NsForm ns → k.tag = ns ++ (fastkml.info d).tag → parse fastkml strict k d ns N = .ok w →
    g w ≤ total f (labels u k)

theorem class_brace (d : Cls) : '}' ∉ (fastkml.info d).tag := by
  have : ∀ d ∈ Cls.all, '}' ∉ (fastkml.info d).tag := by decide +kernel
  exact this d (Cls.mem_all d)

theorem class_tag (d : Cls) : (fastkml.info d).tag = (elemName d).name := by
  have : ∀ d ∈ Cls.all, (fastkml.info d).tag = (elemName d).name := by decide +kernel
  exact this d (Cls.mem_all d)

/-- The names of the elements of the classes. -/
def tagsOf (cs : List (PyType Cls)) : List Str := cs.filterMap fun t => match t with
  | .cls d => some (fastkml.info d).tag
  | _ => none

theorem localNames_tags {it : Item Cls} (h : place it.get = .object ∨ place it.get = .objects) : localNames fastkml it = tagsOf it.classes := by
  unfold localNames tagsOf
  rcases h with h | h <;> rw [h] <;> refine congrArg (List.filterMap · it.classes) (funext fun t => ?_) <;> cases t <;> rfl

theorem readAll_total {f : Str → List Str → Nat} {g : Val Cls F → Nat} {u : Str} {N : NsMap} {strict : Bool} {ns : Str} (hns : NsForm ns) {d : Cls} {ks : List Xml}
    (hk : ∀ k ∈ ks, Counted f g u N strict k) : ∀ {vs : List (Val Cls F)},
    readAll d ns N ((kidsOf (parse fastkml strict) ks).filter fun k => decide (k.tag = ns ++ (fastkml.info d).tag)) = .ok vs →
    (vs.map g).sum ≤ share f u [(fastkml.info d).tag] ks := by
  induction ks with
  | nil => intro vs h; cases h; exact Nat.le_refl _
  | cons k ks ih =>
    intro vs h
    have ih := @ih fun x hx => hk x (List.mem_cons_of_mem _ hx)
    simp only [kidsOf, List.map_cons, List.filter_cons] at h
    simp only [share, List.map_cons, List.sum_cons]
    split at h
    · rename_i ht
      have ht : k.tag = ns ++ (fastkml.info d).tag := of_decide_eq_true ht
      simp only [readAll] at h
      split at h
      · cases h
      · rename_i v hv
        split at h
        · cases h
        · rename_i vs' hvs
          cases h
          have h1 := hk k List.mem_cons_self d ns v hns ht hv
          have h2 := ih hvs
          rw [show localName k.tag = (fastkml.info d).tag by rw [ht, localOf_append hns (class_brace d)]]
          simp only [List.map_cons, List.sum_cons, List.mem_singleton, if_true]
          simp only [share, List.mem_singleton] at h2
          exact Nat.add_le_add h1 h2
    · exact Nat.le_trans (ih h) (Nat.le_add_left _ _)

theorem share_split {f : Str → List Str → Nat} {u : Str} {a : Str} {as : List Str} (ha : a ∉ as) (ks : List Xml) :
    share f u [a] ks + share f u as ks ≤ share f u (a :: as) ks := by
  simp only [share]
  rw [← sum_add]
  refine sum_le fun k _ => ?_
  by_cases h1 : localName k.tag = a
  · have : localName k.tag ∉ as := fun h => ha (h1 ▸ h)
    simp [h1, ha]
  · by_cases h2 : localName k.tag ∈ as <;> simp [h1, h2]

theorem list_total {f : Str → List Str → Nat} {g : Val Cls F → Nat} {u : Str} {N : NsMap} {strict : Bool} {ns : Str} (hns : NsForm ns) {ks : List Xml}
    (hk : ∀ k ∈ ks, Counted f g u N strict k) {cs : List (PyType Cls)} (hn : (tagsOf cs).Nodup) : ∀ {vs : List (Val Cls F)},
    getXmlSubList fastkml (kidsOf (parse fastkml strict) ks) ns N cs = .ok vs →
    (vs.map g).sum ≤ share f u (tagsOf cs) ks := by
  induction cs with
  | nil => intro vs h; cases h; exact Nat.zero_le _
  | cons t cs ih =>
    intro vs h
    cases t with
    | cls d =>
      simp only [tagsOf, List.filterMap_cons, List.nodup_cons] at hn
      simp only [getXmlSubList] at h
      split at h
      · cases h
      · rename_i v1 hv1
        split at h
        · cases h
        · rename_i v2 hv2
          cases h
          have h1 := readAll_total hns hk hv1
          have h2 := ih hn.2 hv2
          rw [List.map_append, List.sum_append]
          exact Nat.le_trans (Nat.add_le_add h1 h2) (share_split hn.1 ks)
    | _ => cases h

theorem item_total {f : Str → List Str → Nat} {u : Str} {N : NsMap} (hN : NsOk N) {strict : Bool} {c : Cls} {e : Xml}
    (hk : ∀ k ∈ e.kids, Counted f (fun v : Val Cls F => total f (objects v)) u N strict k) {it : Item Cls} (hit : it ∈ fastkml.itemsOf c) {v : Val Cls F}
    (h : tryNs fastkml it strict N e (kidsOf (parse fastkml strict) e.kids) it.nsIds = .ok (some v)) :
    total f (objects v) ≤ share f u (localNames fastkml it) e.kids := by
  obtain ⟨pre, id, post, -, -, h⟩ := tryNs_some.mp h
  have hns := nsGet_form hN id
  have hno : ∀ {α : Type} {g : α → Val Cls F} {r : Except Err (Option α)}, (∀ a, objects (g a) = []) → wrap g r = .ok (some v) →
      total f (objects v) ≤ share f u (localNames fastkml it) e.kids := by
    intro α g r hg hw
    obtain ⟨a, _, rfl⟩ := wrap_some hw
    rw [hg]; exact Nat.zero_le _
  have hmap : ∀ {o : Option Str}, (Except.ok (o.map Val.str) : Except Err (Option (Val Cls F))) = .ok (some v) →
      total f (objects v) ≤ share f u (localNames fastkml it) e.kids := by
    intro o ho
    cases o with
    | none => cases ho
    | some s => cases ho; exact Nat.zero_le _
  have hnd : (localNames fastkml it).Nodup := by
    have h1 := (fastkml_namesOk c).nodup
    obtain ⟨l1, l2, hl⟩ := List.append_of_mem hit
    rw [hl, List.flatMap_append, List.flatMap_cons, List.nodup_append] at h1
    have h2 := h1.2.1
    rw [List.nodup_append] at h2
    exact h2.1
  unfold getKwarg at h
  cases hg : it.get <;> rw [hg] at h <;> simp only at h
  case nodeText => exact hmap h
  case subText => exact hmap h
  case attrText => exact hmap h
  case subBool =>
    split at h
    · exact hno (fun _ => rfl) h
    · cases h
  case subInt => exact hno (fun _ => rfl) h
  case attrInt => exact hno (fun _ => rfl) h
  case subFloat => exact hno (fun _ => rfl) h
  case attrFloat => exact hno (fun _ => rfl) h
  case subEnum =>
    split at h
    · exact hno (fun _ => rfl) h
    · cases h
  case attrEnum =>
    split at h
    · exact hno (fun _ => rfl) h
    · cases h
  case subDt => exact hno (fun _ => rfl) h
  case subDtList => exact hno (fun _ => rfl) h
  case coordsList => exact hno (fun _ => rfl) h
  case coordinates => exact hno (fun _ => rfl) h
  case xmlSub =>
    have hl : localNames fastkml it = tagsOf it.classes := localNames_tags (by rw [hg]; simp [place])
    obtain ⟨k, hk', d, hd, ht, hr⟩ := getXmlSub_some h
    simp only [kidsOf, List.mem_map] at hk'
    obtain ⟨x, hx, rfl⟩ := hk'
    have h1 := hk x hx d _ v hns ht hr
    have ht : x.tag = nsGet N id ++ (fastkml.info d).tag := ht
    have h2 : localName x.tag ∈ localNames fastkml it := by
      rw [ht, localOf_append hns (class_brace d), hl]
      exact List.mem_filterMap.mpr ⟨_, hd, rfl⟩
    refine Nat.le_trans h1 ?_
    have := le_sum (f := fun k => if localName k.tag ∈ localNames fastkml it then total f (labels u k) else 0) hx
    simp only [h2, if_true] at this
    exact this
  case xmlSubList =>
    have hl : localNames fastkml it = tagsOf it.classes := localNames_tags (by rw [hg]; simp [place])
    split at h
    · cases h
    · rename_i vs hvs
      cases h
      rw [hl] at hnd ⊢
      show total f (objectsAll vs) ≤ _
      rw [total_objectsAll]
      exact list_total hns hk hnd hvs

/-- Every child counts for one attribute only. -/
theorem shares {f : Str → List Str → Nat} {u : Str} {nm : Item Cls → List Str} {its : List (Item Cls)} (hn : (its.flatMap nm).Nodup) (ks : List Xml) :
    (its.map fun it => share f u (nm it) ks).sum ≤ (ks.map fun k => total f (labels u k)).sum := by
  have h1 : ∀ n : Str, ∀ x : Nat, (its.map fun it => if n ∈ nm it then x else 0).sum ≤
      if n ∈ its.flatMap nm then x else 0 := by
    intro n x
    induction its with
    | nil => exact Nat.le_refl _
    | cons it its ih =>
      rw [List.flatMap_cons, List.nodup_append] at hn
      have := ih hn.2.1
      simp only [List.map_cons, List.sum_cons, List.flatMap_cons, List.mem_append]
      by_cases ha : n ∈ nm it
      · have hb : n ∉ its.flatMap nm := fun hb => hn.2.2 n ha n hb rfl
        simp only [hb, if_false] at this
        simp only [ha, if_true, true_or]
        omega
      · simp only [ha, if_false, false_or]
        omega
  induction ks with
  | nil =>
    simp only [share, List.map_nil, List.sum_nil]
    clear hn h1
    induction its with
    | nil => exact Nat.le_refl _
    | cons it its ih => simpa using ih
  | cons k ks ih =>
    simp only [share, List.map_cons, List.sum_cons] at ih ⊢
    rw [sum_add]
    refine Nat.add_le_add (Nat.le_trans (h1 _ _) ?_) ih
    split
    · exact Nat.le_refl _
    · exact Nat.zero_le _

theorem kwOf_total {f : Str → List Str → Nat} {r : Item Cls → Option (Val Cls F)} {its : List (Item Cls)} {b : Item Cls → Nat}
    (h : ∀ it ∈ its, ∀ v, r it = some v → total f (objects v) ≤ b it) : total f (objectsIn (kwOf r its)) ≤ (its.map b).sum := by
  rw [total_objectsIn]
  induction its with
  | nil => exact Nat.le_refl _
  | cons it its ih =>
    have ih := ih fun x hx => h x (List.mem_cons_of_mem _ hx)
    rw [kwOf_cons, List.map_append, List.sum_append, List.map_cons, List.sum_cons]
    refine Nat.add_le_add ?_ ih
    cases hr : r it with
    | none => exact Nat.zero_le _
    | some v => simpa using h it List.mem_cons_self v hr

/-- The items for identifiers. -/
def idItemB (c : Cls) : Bool :=
  ((fastkml.itemsOf c).all fun it => !decide (it.attr = s% "id") ||
    (decide (it.get = .attrText) && decide (it.node = s% "id") && it.nsIds.all (fun i => decide (i = [] ∨ i = s% "kml")) && decide (it.dflt = .none))) &&
  ((fastkml.itemsOf c).all fun it => !decide (place it.get = .attr ∧ it.node = s% "id") || decide (it.attr = s% "id")) &&
  ((fastkml.info c).slots.all fun p => !decide (p.1 = s% "id") || (fastkml.itemsOf c).any fun it => decide (it.attr = s% "id"))

theorem fastkml_idItems (c : Cls) : idItemB c = true := by
  have : ∀ c ∈ Cls.all, idItemB c = true := by decide +kernel
  exact this c (Cls.mem_all c)

theorem id_item {c : Cls} {it : Item Cls} (hit : it ∈ fastkml.itemsOf c) (ha : it.attr = s% "id") :
    it.get = .attrText ∧ it.node = s% "id" ∧ (∀ i ∈ it.nsIds, i = [] ∨ i = s% "kml") ∧ it.dflt = .none := by
  have := fastkml_idItems c
  simp only [idItemB, Bool.and_eq_true, List.all_eq_true, Bool.or_eq_true, Bool.not_eq_true', decide_eq_false_iff_not, decide_eq_true_eq] at this
  rcases this.1.1 it hit with h | ⟨⟨⟨h1, h2⟩, h3⟩, h4⟩
  · exact absurd ha h
  · exact ⟨h1, h2, h3, h4⟩

theorem id_node {c : Cls} {it : Item Cls} (hit : it ∈ fastkml.itemsOf c) (hp : place it.get = .attr) (hn : it.node = s% "id") :
    it.attr = s% "id" := by
  have := fastkml_idItems c
  simp only [idItemB, Bool.and_eq_true, List.all_eq_true, Bool.or_eq_true, Bool.not_eq_true', decide_eq_false_iff_not, decide_eq_true_eq] at this
  rcases this.1.2 it hit with h | h
  · exact absurd ⟨hp, hn⟩ h
  · exact h

theorem id_slot {c : Cls} {p : Str × Norm} (hp : p ∈ (fastkml.info c).slots) (ha : p.1 = s% "id") :
    ∃ it ∈ fastkml.itemsOf c, it.attr = s% "id" := by
  have := fastkml_idItems c
  simp only [idItemB, Bool.and_eq_true, List.all_eq_true, Bool.or_eq_true, Bool.not_eq_true', decide_eq_false_iff_not, decide_eq_true_eq,
    List.any_eq_true] at this
  rcases this.2 p hp with h | h
  · exact absurd ha h
  · exact h

theorem given_id {u : Str} {as : List (Str × Str)} {a t : Str} (ha : a = s% "id" ∨ a = u ++ s% "id") (h : given (dget a as) = some t) {i : Str}
    (hi : identifier t = some i) : i ∈ idsIn u as := by
  refine List.mem_filterMap.mpr ⟨a, by simpa using ha, ?_⟩
  cases hd : dget a as with
  | none => rw [hd] at h; cases h
  | some s =>
    rw [hd] at h
    simp only [given] at h
    split at h
    · cases h
    · cases h
      simpa using hi

theorem identifier_trimmed {t i x : Str} (h : trimmed (some t) = some x) (hi : identifier x = some i) : identifier t = some i := by
  simp only [trimmed] at h
  split at h
  · cases h
  · cases h
    simp only [identifier, strip_idem] at hi ⊢
    exact hi

/-- The identifier of an object that is read is one of its element. -/
theorem read_id {strict : Bool} {e : Xml} {c : Cls} {ns : Str} {nss : NsMap} {ns' : Str} {nss' : NsMap}
    {attrs : List (Str × Val Cls F)} (h : parse fastkml strict e c ns nss = .ok (.obj c ns' nss' attrs))
    (h0 : nsGet (mergeNs nss) [] = []) : ∀ i ∈ idOf attrs, idOf attrs = [i] ∧ i ∈ idsIn (nsGet (mergeNs nss) (s% "kml")) e.attrs := by
  intro i hi
  unfold idOf at hi ⊢
  split at hi
  case h_2 => cases hi
  rename_i s hs
  cases hs' : identifier s with
  | none => rw [hs'] at hi; cases hi
  | some j =>
    rw [hs'] at hi
    simp only [Option.toList, List.mem_singleton] at hi
    subst hi
    refine ⟨by simp [hs'], ?_⟩
    by_cases hx : ∃ it ∈ fastkml.itemsOf c, it.attr = s% "id"
    · obtain ⟨it, hit, ha⟩ := hx
      obtain ⟨hg, hn, hid, -⟩ := id_item hit ha
      have h1 := C14_scalar strict e c ns nss c ns' nss' attrs h it hit (by rw [hg]; simp [scalar, place])
      have h2 : Spec.attr it.attr attrs = .str s := by rw [ha]; simp [Spec.attr, hs]
      rw [h2] at h1
      have key : ∀ ids : List Str, (∀ i ∈ ids, i = [] ∨ i = s% "kml") → ∀ w : Val Cls F, firstValue strict it (mergeNs nss) e ids = some w →
          ∃ a t, (a = s% "id" ∨ a = nsGet (mergeNs nss) (s% "kml") ++ s% "id") ∧ given (dget a e.attrs) = some t ∧ w = .str t := by
        intro ids
        induction ids with
        | nil => intro _ w hw; cases hw
        | cons x ids ih =>
          intro hids w hw
          have ih := ih fun y hy => hids y (List.mem_cons_of_mem _ hy)
          simp only [firstValue, itemText, hg, place, denotes, hn] at hw
          split at hw
          · exact ih w hw
          · rename_i t ht
            cases hw
            refine ⟨_, t, ?_, ht, rfl⟩
            rcases hids x List.mem_cons_self with rfl | rfl
            · left; rw [h0]; rfl
            · right; rfl
      cases hf : firstValue (F := F) (C := Cls) strict it (mergeNs nss) e it.nsIds with
      | none =>
        rw [hf] at h1
        simp only [stored] at h1
        split at h1
        · cases h1; cases hs'
        · cases h1
      | some w =>
        obtain ⟨a, t, ha', ht, rfl⟩ := key _ hid w hf
        rw [hf] at h1
        simp only [stored] at h1
        split at h1
        · cases h1
          exact given_id ha' ht hs'
        · split at h1
          · cases h1
          · rename_i x hx
            cases h1
            exact given_id ha' ht (identifier_trimmed hx hs')
    · exfalso
      have hm := dget_mem hs
      obtain ⟨r, -, hc⟩ := parse_ok (fastkml_readOk c) h
      obtain ⟨ex, sp, sl, hex, hsp, hsl, he⟩ := construct_ok hc
      cases he
      rcases List.mem_append.mp hm with hm | hm
      · rcases List.mem_append.mp hm with hm | hm
        · rw [hex] at hm
          have hm := (List.mem_filter.mp hm).1
          exact hx (List.mem_map.mp (kwOf_keys (List.mem_map.mpr ⟨_, hm, rfl⟩)))
        · have := (special_objects hsp _ hm).2
          cases this
      · obtain ⟨n, hn, -⟩ := fillSlots_mem hsl hm
        exact hx (id_slot hn rfl)

/-- A weight of labels that grows with the identifiers. -/
structure Weight (f : Str → List Str → Nat) : Prop where
  none : ∀ n is, f n [] ≤ f n is
  some : ∀ n is, ∀ i ∈ is, f n [i] ≤ f n is

theorem parse_total {f : Str → List Str → Nat} (hf : Weight f) {strict : Bool} {N : NsMap} (hN : NsOk N) (hM : mergeNs N = N) (h0 : nsGet N [] = []) :
    ∀ (e : Xml) (c : Cls) (ns : Str) (v : Val Cls F), parse fastkml strict e c ns N = .ok v →
      total f (objects v) ≤ f (elemName c).name (idsIn (nsGet N (s% "kml")) e.attrs) + total f (labelsAll (nsGet N (s% "kml")) e.kids) := by
  intro e
  induction e using Xml.ind with
  | h t a x ks ih =>
    intro c ns v h
    obtain ⟨-, as, rfl⟩ := parse_typed fastkml_readOk h
    obtain ⟨r, hr, hc⟩ := parse_ok (fastkml_readOk c) h
    rw [hM] at hr hc
    have hk : ∀ k ∈ ks, Counted f (fun v : Val Cls F => total f (objects v)) (nsGet N (s% "kml")) N strict k := by
      intro k hk d ns' w hns ht hp
      have := ih k hk d ns' w hp
      obtain ⟨t', a', x', ks'⟩ := k
      have ht : t' = ns' ++ (fastkml.info d).tag := ht
      simp only [labels, total_cons]
      rw [ht, localOf_append hns (class_brace d), class_tag]
      exact this
    simp only [objects, total_cons]
    refine Nat.add_le_add ?_ ?_
    · have hid := read_id h (by rw [hM]; exact h0)
      rw [hM] at hid
      cases hi : idOf as with
      | nil => exact hf.none _ _
      | cons i is =>
        obtain ⟨h1, h2⟩ := hid i (by rw [hi]; exact List.mem_cons_self)
        rw [← hi, h1]
        exact hf.some _ _ i h2
    · have hc : construct fastkml c ns N (kwOf r (fastkml.itemsOf c)) = .ok (.obj c ns (mergeNs N) as) := by rw [hM]; exact hc
      have h1 := construct_total (f := f) hc
      have h2 := kwOf_total (f := f) (r := r) (its := fastkml.itemsOf c) (b := fun it => share f (nsGet N (s% "kml")) (localNames fastkml it) ks)
        (fun it hit v hv => item_total (e := .mk t a x ks) hN hk hit (by rw [← hv]; exact hr it hit))
      have h3 := shares (f := f) (u := nsGet N (s% "kml")) (fastkml_namesOk c).nodup ks
      rw [total_labelsAll]
      exact Nat.le_trans h1 (Nat.le_trans h2 h3)

/-! ## Writing -/

theorem all2_sum {α : Type} {R : α → List Xml → Prop} {b : α → Nat} {g : Xml → Nat} {l : List α} {m : List (List Xml)} (h : All2 R l m)
    (hR : ∀ x ∈ l, ∀ ks ∈ m, R x ks → (ks.map g).sum ≤ b x) : (m.flatten.map g).sum ≤ (l.map b).sum := by
  induction h with
  | nil => exact Nat.le_refl _
  | cons h1 _ ih =>
    simp only [List.flatten_cons, List.map_append, List.sum_append, List.map_cons, List.sum_cons]
    exact Nat.add_le_add (hR _ List.mem_cons_self _ List.mem_cons_self h1)
      (ih fun x hx ks hks => hR x (List.mem_cons_of_mem _ hx) ks (List.mem_cons_of_mem _ hks))

theorem all2_sum_one {α : Type} {R : α → Xml → Prop} {b : α → Nat} {g : Xml → Nat} {l : List α} {m : List Xml} (h : All2 R l m)
    (hR : ∀ x ∈ l, ∀ k ∈ m, R x k → g k ≤ b x) : (m.map g).sum ≤ (l.map b).sum := by
  induction h with
  | nil => exact Nat.le_refl _
  | cons h1 _ ih =>
    simp only [List.map_cons, List.sum_cons]
    exact Nat.add_le_add (hR _ List.mem_cons_self _ List.mem_cons_self h1)
      (ih fun x hx ks hks => hR x (List.mem_cons_of_mem _ hx) ks (List.mem_cons_of_mem _ hks))

theorem attrs_nodup (c : Cls) : ((fastkml.itemsOf c).map (·.attr)).Nodup := by
  have : ∀ c ∈ Cls.all, ((fastkml.itemsOf c).map (·.attr)).Nodup := by decide +kernel
  exact this c (Cls.mem_all c)

/-- The identifiers of the element of an object. -/
theorem written_ids {P : Pt F → Bool} {c : Cls} {ns : Str} {nss : NsMap} {attrs : List (Str × Val Cls F)}
    (ht : typed fastkml P (.obj c ns nss attrs) = true) {o : Opts} {e : Xml} (h : ser fastkml o (.obj c ns nss attrs) = .ok e)
    {u : Str} (hu : NsForm u) (hu0 : u ≠ []) : idsIn u e.attrs = [] ∨ idsIn u e.attrs = idOf attrs := by
  have W := ser_written (fastkml_writeOk c) ht h
  have h1 : dget (u ++ s% "id") e.attrs = none := by
    cases hd : dget (u ++ s% "id") e.attrs with
    | none => rfl
    | some t =>
      exfalso
      have hb : '}' ∈ u ++ s% "id" := by
        rcases hu with hu | ⟨w, rfl⟩
        · exact absurd hu hu0
        · simp
      rcases W.noAttr _ (dget_mem hd) with ⟨it, hit, -, he⟩ | ⟨-, -, he⟩
      · exact (fastkml_namesOk c).node it hit (he ▸ hb)
      · have he : u ++ s% "id" = s% "xmlns" := he
        rw [he] at hb
        revert hb
        decide
  unfold idsIn
  simp only [List.filterMap_cons, h1, List.filterMap_nil, Option.bind_none]
  cases hd : dget (s% "id") e.attrs with
  | none => left; rfl
  | some t =>
    rcases W.noAttr _ (dget_mem hd) with ⟨it, hit, hp, he⟩ | ⟨-, -, he⟩
    · have hn : it.node = s% "id" := he.symm
      have ha := id_node hit hp hn
      obtain ⟨hg, -, -, hdf⟩ := id_item hit ha
      have hw := W.attr it hit hp
      rw [value_stored ((fastkml_writeOk c).item it hit) (by rw [hp]; simp), ha, hn] at hw
      simp only [Xml.get, hd, attrText, hp, hdf] at hw
      have hk := (typed_obj.mp ht).1 it hit
      rw [ha] at hk
      simp only [kindOk, hg] at hk
      right
      cases hx : dget (s% "id") attrs with
      | none =>
        simp only [attrOf, hx, Option.getD_none] at hw
        cases hv : o.verbosity <;> rw [hv] at hw <;> cases hw
      | some x =>
        simp only [attrOf, hx, Option.getD_some] at hw hk
        cases x <;> simp only [Bool.false_eq_true] at hk
        · cases hv : o.verbosity <;> rw [hv] at hw <;> cases hw
        · rename_i s
          have : t = s := by
            have hs : shown o.verbosity (Dflt.none.val : Val Cls F) (.str s) = .str s := by cases o.verbosity <;> rfl
            rw [hs] at hw
            simp only [scalarText] at hw
            split at hw
            · cases hw
            · exact Option.some.inj hw
          subst this
          simp only [idOf, hx, Option.bind_some]
          cases identifier t <;> rfl
    · have he : s% "id" = s% "xmlns" := he
      exact absurd he (by decide)

theorem ser_total {g : List Str → Nat} (hg : g [] = 0) {P : Pt F → Bool} {o : Opts} {u : Str} (hu : NsForm u) (hu0 : u ≠ []) :
    ∀ (e : Xml) (v : Val Cls F), typed fastkml P v = true → ser fastkml o v = .ok e →
      total (fun _ => g) (labels u e) ≤ total (fun _ => g) (objects v) := by
  intro e
  induction e using Xml.ind with
  | h t a x ks ih =>
    intro v ht h
    obtain ⟨c, ns, nss, attrs, rfl⟩ := ser_isObj h
    have W := ser_written (fastkml_writeOk c) ht h
    obtain ⟨blocks, hb, he⟩ := W.kids
    have he : ks = blocks.flatten := he
    simp only [labels, objects, total_cons]
    have hleaf : ∀ t s, total (fun _ => g) (labels u (Xml.leaf t s)) = 0 := by
      intro t s
      simp [Xml.leaf, labels, labelsAll, total, idsIn, dget, hg]
    refine Nat.add_le_add ?_ ?_
    · have := written_ids ht h hu hu0
      rcases this with h1 | h1
      · have h1 : idsIn u a = [] := h1
        rw [h1, hg]; exact Nat.zero_le _
      · have h1 : idsIn u a = _ := h1
        rw [h1]; exact Nat.le_refl _
    · rw [total_labelsAll, he]
      have h2 := sum_stored (g := fun v : Val Cls F => total (fun _ => g) (objects v)) rfl (attrs_nodup c) attrs
      have h3 : (blocks.flatten.map fun k => total (fun _ => g) (labels u k)).sum ≤
          ((fastkml.itemsOf c).map fun it => total (fun _ => g) (objects (kwGet it.attr attrs))).sum := by
        refine all2_sum hb ?_
        intro it hit ks' hks hB
        have hio := (fastkml_writeOk c).item it hit
        have hsub : ∀ k ∈ ks', k ∈ ks := fun k hk => by rw [he]; exact List.mem_flatten.mpr ⟨_, hks, hk⟩
        have hzero : (∀ k ∈ ks', total (fun _ => g) (labels u k) = 0) →
            (ks'.map fun k => total (fun _ => g) (labels u k)).sum ≤ total (fun _ => g) (objects (kwGet it.attr attrs)) := by
          intro hz
          have : (ks'.map fun k => total (fun _ => g) (labels u k)).sum = 0 := by
            clear hB hks hsub
            induction ks' with
            | nil => rfl
            | cons k ks' ih =>
              simp only [List.map_cons, List.sum_cons, hz k List.mem_cons_self, ih fun y hy => hz y (List.mem_cons_of_mem _ hy)]
          rw [this]; exact Nat.zero_le _
        unfold Block at hB
        split at hB
        · subst hB; exact Nat.zero_le _
        · subst hB; exact Nat.zero_le _
        · subst hB
          refine hzero fun k hk => ?_
          unfold scalarKid at hk
          split at hk
          · cases hk
          · rw [List.mem_singleton] at hk
            rw [hk]; exact hleaf _ _
        · subst hB
          refine hzero fun k hk => ?_
          unfold listKids at hk
          split at hk
          · obtain ⟨w, _, rfl⟩ := List.mem_map.mp hk
            cases w <;> exact hleaf _ _
          · obtain ⟨w, _, rfl⟩ := List.mem_map.mp hk
            exact hleaf _ _
          · cases hk
        · rename_i hp
          rcases hB with ⟨_, rfl⟩ | ⟨y, htr, hy, rfl⟩
          · exact Nat.zero_le _
          · rw [value_stored hio (by simp [hp])] at hy
            have := ih y (hsub y (by simp)) _ (typed_attrOf ht _) hy
            simpa [kwGet, attrOf] using this
        · rename_i hp
          obtain ⟨l, hl, _, hall⟩ := hB
          rw [value_stored hio (by simp [hp])] at hl
          have hl' : kwGet it.attr attrs = .list l := hl
          rw [hl']
          show _ ≤ total (fun _ => g) (objectsAll l)
          rw [total_objectsAll]
          refine Nat.le_trans (all2_sum_one hall (b := fun v => total (fun _ => g) (objects v)) ?_) sum_filter_le
          intro w hw k hk hs
          exact ih k (hsub k hk) w (typed_member ht hl (List.mem_filter.mp hw).1) hs
      rw [total_objectsIn]
      rw [List.map_map] at h2
      simp only [Function.comp_def] at h2
      omega

/-! ## Counting -/

theorem total_ids (l : List (Str × List Str)) (i : Str) : total (fun _ is => is.count i) l = (allIds l).count i := by
  induction l with
  | nil => rfl
  | cons p l ih => simp [total_cons, allIds, List.count_append] at ih ⊢; exact ih

theorem total_names (l : List (Str × List Str)) (n : Str) : total (fun m _ => [m].count n) l = (l.map Prod.fst).count n := by
  induction l with
  | nil => rfl
  | cons p l ih =>
    rw [total_cons, ih, List.map_cons]
    simp only [List.count_cons, List.count_nil]
    omega

theorem total_pairs (l : List (Str × List Str)) (n i : Str) :
    total (fun m is => if m = n ∧ i ∈ is then 1 else 0) l = (l.filter fun p => decide (p.1 = n ∧ i ∈ p.2)).length := by
  induction l with
  | nil => rfl
  | cons p l ih =>
    rw [total_cons, ih, List.filter_cons]
    split <;> split <;> simp_all <;> omega

theorem weight_ids (i : Str) : Weight fun _ is => is.count i := by
  refine ⟨fun n is => Nat.zero_le _, fun n is j hj => ?_⟩
  show List.count i [j] ≤ List.count i is
  by_cases h : j = i
  · subst h
    have := List.count_pos_iff.mpr hj
    simpa using this
  · rw [List.count_cons_of_ne h]; exact Nat.zero_le _

theorem weight_names (n : Str) : Weight fun m _ => [m].count n := ⟨fun _ _ => Nat.le_refl _, fun _ _ _ _ => Nat.le_refl _⟩

theorem weight_pairs (n i : Str) : Weight fun m is => if m = n ∧ i ∈ is then 1 else 0 := by
  refine ⟨fun m is => ?_, fun m is j hj => ?_⟩
  · simp
  · by_cases h : m = n ∧ i ∈ [j]
    · have : m = n ∧ i ∈ is := ⟨h.1, by rw [List.mem_singleton.mp h.2]; exact hj⟩
      rw [if_pos h, if_pos this]; exact Nat.le_refl _
    · rw [if_neg h]; exact Nat.zero_le _

theorem opened_total {f : Str → List Str → Nat} (hf : Weight f) {strict : Bool} {c : Cls} {ns : Option Str} {nss : NsMap} (hN : NsOk nss)
    (h0 : nsGet (mergeNs nss) [] = []) {e : Xml} {v : Val Cls F} (h : fromElement fastkml strict c ns nss e = .ok v)
    (hr : localName e.tag = (elemName c).name ∨ ∀ m n is, f m is = f n is) :
    total f (objects v) ≤ total f (labels (nsGet (mergeNs nss) (s% "kml")) e) := by
  have := parse_total hf (nsOk_merge hN) (mergeNs_idem nss) h0 e c _ v h
  obtain ⟨t, as, x, ks⟩ := e
  simp only [labels, total_cons]
  rcases hr with hr | hr
  · have hr : localName t = _ := hr
    rw [hr]; exact this
  · rw [hr (localName t) (elemName c).name]; exact this

/-- **C78.** Opening a document does not multiply elements: of the objects at all depths, at
most as many have a name as there are elements with that local name, and at most as many have
a name and an identifier as there are elements with both. -/
theorem C78_objects {strict : Bool} {c : Cls} {ns : Option Str} {nss : NsMap} (hN : NsOk nss)
    (h0 : nsGet (mergeNs nss) [] = []) {e : Xml} {v : Val Cls F} (h : fromElement fastkml strict c ns nss e = .ok v)
    (hr : localName e.tag = (elemName c).name) {u : Str} (hu : u = nsGet (mergeNs nss) (s% "kml")) (n i : Str) :
    ((objects v).map Prod.fst).count n ≤ ((labels u e).map Prod.fst).count n ∧
    ((objects v).filter fun p => decide (p.1 = n ∧ i ∈ p.2)).length ≤ ((labels u e).filter fun p => decide (p.1 = n ∧ i ∈ p.2)).length := by
  subst hu
  refine ⟨?_, ?_⟩
  · rw [← total_names, ← total_names]
    exact opened_total (weight_names n) hN h0 h (Or.inl hr)
  · rw [← total_pairs, ← total_pairs]
    exact opened_total (weight_pairs n i) hN h0 h (Or.inl hr)

/-- **C78.** Nor does it multiply identifiers. -/
theorem C78_ids {strict : Bool} {c : Cls} {ns : Option Str} {nss : NsMap} (hN : NsOk nss)
    (h0 : nsGet (mergeNs nss) [] = []) {e : Xml} {v : Val Cls F} (h : fromElement fastkml strict c ns nss e = .ok v)
    {u : Str} (hu : u = nsGet (mergeNs nss) (s% "kml")) (i : Str) :
    (allIds (objects v)).count i ≤ (allIds (labels u e)).count i := by
  subst hu
  rw [← total_ids, ← total_ids]
  exact opened_total (weight_ids i) hN h0 h (Or.inr fun _ _ _ => rfl)

/-- **C78.** Saving an object does not multiply identifiers. -/
theorem C78_written {P : Pt F → Bool} {o : Opts} {v : Val Cls F} (ht : typed fastkml P v = true) {e : Xml} (h : ser fastkml o v = .ok e)
    {u : Str} (hu : NsForm u) (hu0 : u ≠ []) (i : Str) : (allIds (labels u e)).count i ≤ (allIds (objects v)).count i := by
  rw [← total_ids, ← total_ids]
  exact ser_total rfl hu hu0 e v ht h

/-- **C78.** A document that is opened and saved has every identifier at most as often as
before, … -/
theorem C78_saved {strict : Bool} {c : Cls} {ns : Option Str} {nss : NsMap} (hN : NsOk nss) (h0 : nsGet (mergeNs nss) [] = [])
    {e : Xml} {v : Val Cls F} (h : fromElement fastkml strict c ns nss e = .ok v) {u : Str} (hu : u = nsGet (mergeNs nss) (s% "kml"))
    (hu0 : u ≠ []) {o : Opts} {e' : Xml} (hs : ser fastkml o v = .ok e') (i : Str) :
    (allIds (labels u e')).count i ≤ (allIds (labels u e)).count i :=
  Nat.le_trans (C78_written (parse_typed fastkml_readOk h).1 hs (by rw [hu]; exact nsGet_form (nsOk_merge hN) _) hu0 i) (C78_ids hN h0 h hu i)

/-- … and so identifiers that were unique stay unique. -/
theorem C78_unique {strict : Bool} {c : Cls} {ns : Option Str} {nss : NsMap} (hN : NsOk nss) (h0 : nsGet (mergeNs nss) [] = [])
    {e : Xml} {v : Val Cls F} (h : fromElement fastkml strict c ns nss e = .ok v) {u : Str} (hu : u = nsGet (mergeNs nss) (s% "kml"))
    (hu0 : u ≠ []) (hd : (allIds (labels u e)).Nodup) :
    (allIds (objects v)).Nodup ∧ ∀ o e', ser fastkml o v = .ok e' → (allIds (labels u e')).Nodup := by
  rw [List.nodup_iff_count] at hd
  refine ⟨?_, fun o e' hs => ?_⟩
  · rw [List.nodup_iff_count]
    exact fun i => Nat.le_trans (C78_ids hN h0 h hu i) (hd i)
  · rw [List.nodup_iff_count]
    exact fun i => Nat.le_trans (C78_saved hN h0 h hu hu0 hs i) (hd i)

/-! ## Searching by identifier -/

theorem spread_total (f : Str → List Str → Nat) (W : Node F → Nat) (hW : ∀ v, W (.val v) = total f (objects v))
    (hW' : ∀ n, (∀ v, n ≠ .val v) → W n = 0) (v : Val Cls F) : ((spread v).map W).sum = total f (objects v) := by
  have hz : ∀ {α : Type} (l : List α) (g : α → Node F), (∀ a, W (g a) = 0) → ((l.map g).map W).sum = 0 := by
    intro α l g hg
    induction l with
    | nil => rfl
    | cons a l ih => simp only [List.map_cons, List.sum_cons, hg, ih]
  cases v with
  | list l =>
    simp only [spread, objects, total_objectsAll, List.map_map]
    exact congrArg List.sum (List.map_congr_left fun v _ => hW v)
  | str s => rfl
  | floats l => exact hz _ _ fun a => by rw [hW]; rfl
  | coords l => exact hz _ _ fun a => hW' _ (by simp)
  | whens l =>
    refine hz _ _ fun a => ?_
    cases a with
    | none => exact hW' _ (by simp)
    | some k => rw [hW]; rfl
  | items l => exact hz _ _ fun a => hW' _ (by simp)
  | _ => simp [spread, hW]

theorem children_total (f : Str → List Str → Nat) (W : Node F → Nat) (hW : ∀ v, W (.val v) = total f (objects v))
    (hW' : ∀ n, (∀ v, n ≠ .val v) → W n = 0) (c : Cls) (ns : Str) (nss : NsMap) (attrs : List (Str × Val Cls F)) :
    ((getAllAttrs (.val (.obj c ns nss attrs))).map W).sum ≤ total f (objectsIn attrs) := by
  have hflat : ∀ l : List (Str × List (Node F)), ((l.flatMap (·.2)).map W).sum = (l.map fun p => (p.2.map W).sum).sum := by
    intro l
    induction l with
    | nil => rfl
    | cons p l ih => simp [ih]
  have hsplit : ∀ (l : List (Str × List (Node F))) (q : Str × List (Node F) → Bool), ((l.filter q).map fun p => (p.2.map W).sum).sum +
      ((l.filter fun p => !q p).map fun p => (p.2.map W).sum).sum = (l.map fun p => (p.2.map W).sum).sum := by
    intro l q
    induction l with
    | nil => rfl
    | cons p l ih => cases hq : q p <;> simp [hq] <;> omega
  have hns : ((nss.map fun p => (Node.val (.str p.1) : Node F)).map W).sum = 0 := by
    induction nss with
    | nil => rfl
    | cons p l ih => simp only [List.map_cons, List.sum_cons, ih, hW]; rfl
  have hat : ((attrs.map fun p => (p.1, spread p.2)).map fun p => (p.2.map W).sum).sum = total f (objectsIn attrs) := by
    rw [total_objectsIn, List.map_map]
    exact congrArg List.sum (List.map_congr_left fun p _ => spread_total f W hW hW' p.2)
  simp only [getAllAttrs]
  rw [hflat]
  refine Nat.le_trans sum_filter_le ?_
  have h1 := hsplit (attrs.map fun p => (p.1, spread p.2)) fun p => decide (p.1 ∈ beforeBase c)
  have h2 : ∀ l : List (Str × List (Node F)), (l.filter fun p => !decide (p.1 ∈ beforeBase c)) = l.filter fun p => decide (p.1 ∉ beforeBase c) :=
    fun l => List.filter_congr fun p _ => by simp
  rw [h2, hat] at h1
  rw [← h1]
  simp only [dictOrder, List.map_append, List.sum_append, List.map_cons, List.sum_cons, hns, List.map_nil, List.sum_nil, Nat.zero_add]
  exact Nat.le_refl _

theorem found_total {t : Node F → Bool} {i : Str}
    (ht : ∀ n, t n = true → ∃ c ns nss attrs, n = .val (.obj c ns nss attrs) ∧ i ∈ idOf attrs) (W : Node F → Nat)
    (hW : ∀ v, W (.val v) = total (fun _ is => is.count i) (objects v)) (hW' : ∀ n, (∀ v, n ≠ .val v) → W n = 0) :
    ∀ (k : Nat) (n : Node F), (findUpTo t k n).length ≤ W n := by
  intro k
  induction k with
  | zero => intro n; exact Nat.zero_le _
  | succ k ih =>
    intro n
    have hsum : ((getAllAttrs n).flatMap (findUpTo t k)).length ≤ ((getAllAttrs n).map W).sum := by
      rw [List.length_flatMap]
      exact sum_le fun x _ => ih x
    have hzero : (∀ c ns nss attrs, n ≠ .val (.obj c ns nss attrs)) → ((getAllAttrs n).map W).sum = 0 := by
      intro hn
      cases n with
      | val v =>
        cases v with
        | obj c ns nss attrs => exact absurd rfl (hn c ns nss attrs)
        | dt k => simp [getAllAttrs, hW']
        | _ => rfl
      | row r =>
        obtain ⟨w, co, an⟩ := r
        cases w <;> cases an <;> simp [getAllAttrs, hW', hW, objects, total]
      | angle a => simp [getAllAttrs, hW, objects, total]
      | _ => rfl
    simp only [findUpTo, List.length_append]
    by_cases hn : ∃ c ns nss attrs, n = .val (.obj c ns nss attrs)
    · obtain ⟨c, ns, nss, attrs, rfl⟩ := hn
      have h1 := children_total _ W hW hW' c ns nss attrs
      rw [hW]
      simp only [objects, total_cons]
      split
      · rename_i htn
        obtain ⟨c', ns', nss', attrs', he, hi⟩ := ht _ htn
        cases he
        have := List.count_pos_iff.mpr hi
        simp only [List.length_singleton]
        omega
      · simp only [List.length_nil]
        omega
    · have : t n = false := by
        cases htn : t n with
        | false => rfl
        | true =>
          obtain ⟨c, ns, nss, attrs, he, _⟩ := ht n htn
          exact absurd ⟨c, ns, nss, attrs, he⟩ hn
      have hz := hzero fun c ns nss attrs he => hn ⟨c, ns, nss, attrs, he⟩
      simp only [this, Bool.false_eq_true, if_false, List.length_nil]
      omega

theorem identifier_self {i : Str} (h : strip i = i) (hi : i ≠ []) : identifier i = some i := by
  simp [identifier, h, hi]

/-- **C78.** A search by identifier finds at most as many objects as there are elements with
that identifier.  So there is at most one if identifiers are unique. -/
theorem C78_find {strict : Bool} {c : Cls} {ns : Option Str} {nss : NsMap} (hN : NsOk nss) (h0 : nsGet (mergeNs nss) [] = [])
    {e : Xml} {v : Val Cls F} (h : fromElement fastkml strict c ns nss e = .ok v) {u : Str} (hu : u = nsGet (mergeNs nss) (s% "kml"))
    {P : Look F} (hP : EqStr P) (hx : ∀ n, P.extra n (s% "id") = none) {q : Query F} {i : Str} (hi : i ≠ []) (his : strip i = i)
    (hq : (s% "id", .str i) ∈ q.attrs) : (findAll P q (.val v)).length ≤ (allIds (labels u e)).count i := by
  refine Nat.le_trans ?_ (C78_ids hN h0 h hu i)
  rw [← total_ids]
  refine found_total (W := fun n : Node F => match n with
    | .val v => total (fun _ is => is.count i) (objects v)
    | _ => 0) ?_ (fun _ => rfl) ?_ _ _
  · intro n hn
    obtain ⟨w, hw, he⟩ := ((test_iff P q n).mp hn).2 _ _ hq
    unfold Look.getattr at hw
    split at hw
    · rename_i c ns nss attrs
      refine ⟨c, ns, nss, attrs, rfl, ?_⟩
      rw [if_neg (by decide)] at hw
      split at hw
      · rename_i y hy
        cases hw
        obtain ⟨s, rfl⟩ := hP.2 _ _ he
        rw [hP.1] at he
        have he := of_decide_eq_true he
        subst he
        simp [idOf, hy, identifier_self his hi]
      · rw [hx] at hw; cases hw
    · rw [hx] at hw; cases hw
  · intro n hn
    cases n with
    | val v => exact absurd rfl (hn v)
    | _ => rfl

/-- **C78.** If identifiers are unique, `get_style_by_url` returns the one style or style map
with the identifier. -/
theorem C78_style {strict : Bool} {c : Cls} {ns : Option Str} {nss : NsMap} (hN : NsOk nss) (h0 : nsGet (mergeNs nss) [] = [])
    {e : Xml} {v : Val Cls F} (h : fromElement fastkml strict c ns nss e = .ok v) {u : Str} (hu : u = nsGet (mergeNs nss) (s% "kml"))
    (hd : (allIds (labels u e)).Nodup) {P : Look F} (hP : EqStr P) (hx : ∀ n, P.extra n (s% "id") = none) {url : Str}
    (hi : urlFragment url ≠ []) (his : strip (urlFragment url) = urlFragment url) {x : Node F} (hr : Reach (.val v) x)
    (hs : StyleWithId (urlFragment url) x) : getStyleByUrl P v url = some x := by
  have h1 := C78_find hN h0 h hu hP hx (q := ⟨some [.Style, .StyleMap], [(s% "id", .str (urlFragment url))]⟩) hi his (by simp)
  have h2 := Nat.le_trans h1 (List.nodup_iff_count.mp hd _)
  have h3 := (mem_findAll P ⟨some [.Style, .StyleMap], [(s% "id", .str (urlFragment url))]⟩ x (.val v)).mpr
    ⟨hr, (fits_style' hP _ _ _ (C36_read strict e c _ _ v h) hr).mpr hs⟩
  unfold getStyleByUrl
  match hf : findAll P ⟨some [.Style, .StyleMap], [(s% "id", .str (urlFragment url))]⟩ (.val v), h2, h3 with
  | [y], _, h3 => rw [List.mem_singleton.mp h3]; rfl

/-! ## Case -/

/-- A document with identifiers: some in the namespace of KML, some of elements that are not
supported. -/
def labelledDoc : Xml := kNode (s% "kml") [] [kNode (s% "Document") [(s% "id", s% "d1")] [
  kNode (s% "Style") [(s% "id", s% "s1")] [kNode (s% "LineStyle") [(s% "id", s% " s2 ")] []],
  kNode (s% "Schema") [(kmlNs ++ s% "id", s% "c1")] [],
  kNode (s% "Unknown") [(s% "id", s% "x1")] [],
  kNode (s% "Placemark") [(s% "id", s% "p1")] [
    kNode (s% "LineString") [(s% "id", s% "l1")] [kLeaf (s% "coordinates") (s% "1,2 3,4")],
    kNode (s% "Point") [(s% "id", s% "l2")] [kLeaf (s% "coordinates") (s% "1,2")]]]]

example : NsOk [] ∧ nsGet (mergeNs []) [] = [] ∧ nsGet (mergeNs []) (s% "kml") = kmlNs ∧ kmlNs ≠ [] ∧
    localName labelledDoc.tag = (elemName .KML).name ∧ (allIds (labels kmlNs labelledDoc)).Nodup ∧
    allIds (labels kmlNs labelledDoc) = [s% "d1", s% "s1", s% "s2", s% "c1", s% "x1", s% "p1", s% "l1", s% "l2"] :=
  ⟨(by intro p hp; cases hp), by decide +kernel, by decide +kernel, by decide +kernel, by decide +kernel, by decide +kernel, by decide +kernel⟩

/-- It is opened and saved.  One of the two geometries of the placemark is kept, and the empty
style is not saved. -/
example : (match fromElement (F := Fix) fastkml true .KML none [] labelledDoc with
    | .ok v => decide (objects v = [(s% "kml", []), (s% "Document", [s% "d1"]), (s% "Style", [s% "s1"]), (s% "LineStyle", [s% "s2"]),
        (s% "Placemark", [s% "p1"]), (s% "Point", [s% "l2"]), (s% "coordinates", []), (s% "Schema", [s% "c1"])]) &&
      (match ser fastkml ⟨none, .normal⟩ v with
      | .ok e => decide (allIds (labels kmlNs e) = [s% "d1", s% "p1", s% "l2", s% "c1"])
      | .error _ => false) &&
      decide ((findAll look ⟨none, [(s% "id", .str (s% "p1"))]⟩ (.val v)).length = 1) &&
      decide (idsOf (getStyleByUrl look v (s% "a.kml#s1")).toList = [some (.str (s% "s1"))])
    | .error _ => false) = true ∧ EqStr look ∧ (∀ n, look.extra n (s% "id") = none) ∧ strip (urlFragment (s% "a.kml#s1")) = s% "s1" :=
  ⟨by decide +kernel, look_eqStr, fun _ => rfl, by decide +kernel⟩

end Verif
