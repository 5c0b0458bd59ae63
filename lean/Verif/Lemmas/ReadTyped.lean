import Verif.Lemmas.Typing
import Verif.Lemmas.Ns
import Verif.Spec.Errors

/-!
# What reading returns is well typed, and where reading errors come from
-/

set_option linter.unusedSectionVars false
set_option linter.unusedSimpArgs false

namespace Verif

open Spec

variable {C F : Type} [DecidableEq C]

/-- Norms that suit a reader. -/
def normOk (g : GetFn) (n : Norm) : Bool :=
  match g, n with
  | .nodeText, .clean | .subText, .clean | .attrText, .clean => true
  | .nodeText, .orEmpty | .subText, .orEmpty | .attrText, .orEmpty => true
  | .xmlSubList, .listOr | .xmlSubList, .listNotNone | .xmlSubList, .listTruthy => true
  | .xmlSubList, _ => false
  | .coordinates, .coordsOr => true
  | .coordinates, _ => false
  | .subDtList, _ | .coordsList, _ => false
  | _, .raw | _, .orNone => true
  | _, _ => false

/-- The classes of an item suit its reader. -/
def classesOk (it : Item C) : Bool :=
  match it.get with
  | .subBool => decide (it.classes = [.bool])
  | .subEnum | .attrEnum => match it.classes with
    | [.enum _] => true
    | _ => false
  | .xmlSub | .xmlSubList => it.classes.all fun t => match t with
    | .cls _ => true
    | _ => false
  | _ => true

/-- The argument of an item is stored with a suitable norm, or is one of the
arguments of `gx.Track`. -/
def slotOk (i : ClsInfo C) (it : Item C) : Bool :=
  (i.slots.any fun s => decide (s.1 = it.attr) && normOk it.get s.2) ||
  (decide (i.special = .track) &&
    ((decide (it.attr = s% "whens") && decide (it.get = .subDtList)) ||
     (decide (it.attr = s% "coords") && decide (it.get = .coordsList)) ||
     (decide (it.attr = s% "angles") && decide (it.get = .coordsList))))

/-- The conditions that reading needs. -/
def readOk (L : Lib C) (c : C) : Bool :=
  let i := L.info c
  let items := L.itemsOf c
  decide ((items.map (·.attr)).Nodup) &&
  decide ((specialArgs i.special ++ i.slots.map Prod.fst).Nodup) &&
  (items.all classesOk) && (items.all (slotOk i)) &&
  (decide (i.special ≠ .schema) ||
    items.all fun it => decide (it.attr ≠ s% "id") || decide (it.get = .attrText)) 

theorem slotOk_iff {i : ClsInfo C} {it : Item C} (h : slotOk i it = true) :
    (∃ n, (it.attr, n) ∈ i.slots ∧ normOk it.get n = true) ∨
    (i.special = .track ∧ ((it.attr = s% "whens" ∧ it.get = .subDtList) ∨
      (it.attr = s% "coords" ∧ it.get = .coordsList) ∨ (it.attr = s% "angles" ∧ it.get = .coordsList))) := by
  simp only [slotOk, Bool.or_eq_true, Bool.and_eq_true, List.any_eq_true, decide_eq_true_eq] at h
  rcases h with ⟨⟨a, n⟩, hs, ha, hn⟩ | ⟨h1, h2⟩
  · subst ha; exact Or.inl ⟨n, hs, hn⟩
  · right
    refine ⟨h1, ?_⟩
    rcases h2 with (h | h) | h
    · exact Or.inl h
    · exact Or.inr (Or.inl h)
    · exact Or.inr (Or.inr h)

/-- Slots for readers that have one. -/
theorem slotOk_slot {i : ClsInfo C} {it : Item C} (h : slotOk i it = true)
    (h1 : it.get ≠ .subDtList) (h2 : it.get ≠ .coordsList) :
    ∃ n, (it.attr, n) ∈ i.slots ∧ normOk it.get n = true := by
  rcases slotOk_iff h with h | ⟨_, h | h | h⟩
  · exact h
  · exact absurd h.2 h1
  · exact absurd h.2 h2
  · exact absurd h.2 h2

variable [PyExt F] {P : Pt F → Bool}

/-! ## Values read -/

/-- A child reads as typed instances of the class asked for. -/
def KidOk (L : Lib C) (P : Pt F → Bool) (k : Kid C F) : Prop := ∀ c ns nss v, k.read c ns nss = .ok v →
  typed L P v = true ∧ ∃ as, v = .obj c ns (mergeNs nss) as

/-- The value has the type of the item, and the objects in it are typed. -/
def ValOk (L : Lib C) (P : Pt F → Bool) (it : Item C) (v : Val C F) : Prop :=
  kindOk P it v = true ∧ typed L P v = true ∧ typedElems L P v = true ∧
  (it.get = .subDtList → ∃ l, v = .whens l) ∧ (it.get = .coordsList → ∃ l, v = .coords l)

theorem getSub_some {α : Type} {conv : Str → Option α} {e : Xml} {tag : Str} {strict : Bool} {a : α}
    (h : getSub conv e tag strict = .ok (some a)) : ∃ t, conv t = some a := by
  simp only [getSub] at h
  split at h
  · cases h
  · split at h
    · cases h
    · split at h
      · rename_i t ht a' ha'
        simp at h; subst h; exact ⟨_, ha'⟩
      · cases strict <;> simp [handleError] at h

theorem getAttr_some {α : Type} {conv : Str → Option α} {e : Xml} {key : Str} {strict : Bool} {a : α}
    (h : getAttr conv e key strict = .ok (some a)) : ∃ t, conv t = some a := by
  simp only [getAttr] at h
  split at h
  · cases h
  · split at h
    · rename_i a' ha'
      simp at h; subst h; exact ⟨_, ha'⟩
    · cases strict <;> simp [handleError] at h

theorem wrap_some {α : Type} {f : α → Val C F} {r : Except Err (Option α)} {v : Val C F}
    (h : wrap f r = .ok (some v)) : ∃ a, r = .ok (some a) ∧ v = f a := by
  cases r with
  | error e => cases h
  | ok o => cases o with
    | none => cases h
    | some a => simp [wrap] at h; exact ⟨a, rfl, h.symm⟩

theorem getEnumValue_mem {e : EnumId} {t x : Str} {strict : Bool} (h : getEnumValue e t strict = some x) :
    x ∈ e.values := by
  simp only [getEnumValue] at h
  split at h
  · cases h
  · rename_i v hv
    have hm : v ∈ e.values := by
      simp only [enumCall] at hv
      split at hv
      · rename_i hm; simp at hv; subst hv; exact hm
      · exact List.mem_of_find?_eq_some hv
    split at h
    · cases h
    · simp at h; subst h; exact hm

theorem getXmlSub_some {L : Lib C} {kids : List (Kid C F)} {ns : Str} {nss : NsMap}
    {cs : List (PyType C)} {v : Val C F} (h : getXmlSub L kids ns nss cs = .ok (some v)) :
    ∃ k ∈ kids, ∃ c, .cls c ∈ cs ∧ k.tag = ns ++ (L.info c).tag ∧ k.read c ns nss = .ok v := by
  induction cs with
  | nil => cases h
  | cons t cs ih =>
    cases t with
    | cls c =>
      simp only [getXmlSub] at h
      split at h
      · rename_i k hk
        split at h
        · cases h
        · rename_i w hw
          simp at h; subst h
          have := List.find?_some hk
          exact ⟨k, List.mem_of_find?_eq_some hk, c, by simp, by simpa using this, hw⟩
      · obtain ⟨k, hk, c', hc', r⟩ := ih h
        exact ⟨k, hk, c', by simp [hc'], r⟩
    | _ => cases h

theorem getXmlSubList_mem {L : Lib C} {kids : List (Kid C F)} {ns : Str} {nss : NsMap}
    {cs : List (PyType C)} {vs : List (Val C F)} (h : getXmlSubList L kids ns nss cs = .ok vs) :
    ∀ v ∈ vs, ∃ k ∈ kids, ∃ c, .cls c ∈ cs ∧ k.tag = ns ++ (L.info c).tag ∧ k.read c ns nss = .ok v := by
  induction cs generalizing vs with
  | nil => simp [getXmlSubList] at h; subst h; simp
  | cons t cs ih =>
    cases t with
    | cls c =>
      simp only [getXmlSubList] at h
      split at h
      · cases h
      · rename_i ws hws
        split at h
        · cases h
        · rename_i us hus
          simp at h; subst h
          intro v hv
          rcases List.mem_append.mp hv with hv | hv
          · obtain ⟨hlen, hz⟩ := readAll_ok hws
            obtain ⟨i, hi, rfl⟩ := List.getElem_of_mem hv
            have hi' : i < (kids.filter (fun k => decide (k.tag = ns ++ (L.info c).tag))).length := by omega
            have := hz ((kids.filter (fun k => decide (k.tag = ns ++ (L.info c).tag)))[i], ws[i])
              (by rw [List.mem_iff_getElem]; exact ⟨i, by simp; omega, by simp⟩)
            have hm := List.mem_filter.mp (List.getElem_mem hi')
            exact ⟨_, hm.1, c, by simp, by simpa using hm.2, this⟩
          · obtain ⟨k, hk, c', hc', r⟩ := ih hus v hv
            exact ⟨k, hk, c', by simp [hc'], r⟩
    | _ => cases h

theorem nonEmptyList_some {α : Type} {r : Except Err (List α)} {l : List α}
    (h : nonEmptyList r = .ok (some l)) : r = .ok l := by
  cases r with
  | error e => cases h
  | ok m => cases m <;> simp [nonEmptyList] at h; rw [h]

/-- The tuples in the coordinates text of an element satisfy `P`. -/
def CoordsOk (P : Pt F → Bool) (e : Xml) : Prop :=
  ∀ t cs, e.text = some t → tuplesOf (latlons t) = some cs → cs.all P = true

theorem coordsOk_any (e : Xml) : CoordsOk (F := F) anyPt e := by
  intro t cs _ _
  simp [anyPt]

/-- What a reader returns is of the type of the item, if the children it finds are read
so, and the coordinates satisfy `P`. -/
theorem getKwarg_valOk_local {L : Lib C} {it : Item C} {strict : Bool} {ns : Str} {nss : NsMap} {e : Xml}
    {kids : List (Kid C F)} (hk : it.get = .xmlSub ∨ it.get = .xmlSubList → ∀ k ∈ kids, ∀ c, .cls c ∈ it.classes →
      k.tag = ns ++ (L.info c).tag → ∀ v, k.read c ns nss = .ok v → typed L P v = true ∧ ∃ as, v = .obj c ns (mergeNs nss) as)
    (hco : it.get = .coordinates → CoordsOk P e) {v : Val C F}
    (h : getKwarg L it strict ns nss e kids = .ok (some v)) : ValOk L P it v := by
  unfold getKwarg at h
  cases hg : it.get <;> rw [hg] at h <;> simp only [ValOk, kindOk, hg] <;> simp only at h
  case nodeText =>
    simp at h; obtain ⟨s, _, rfl⟩ := h; simp [typed, typedElems]
  case subText =>
    simp at h; obtain ⟨s, _, rfl⟩ := h; simp [typed, typedElems]
  case attrText =>
    simp at h; obtain ⟨s, _, rfl⟩ := h; simp [typed, typedElems]
  case subBool =>
    split at h
    · obtain ⟨a, _, rfl⟩ := wrap_some h; simp [typed, typedElems]
    · cases h
  case subInt => obtain ⟨a, _, rfl⟩ := wrap_some h; simp [typed, typedElems]
  case attrInt => obtain ⟨a, _, rfl⟩ := wrap_some h; simp [typed, typedElems]
  case subFloat => obtain ⟨a, _, rfl⟩ := wrap_some h; simp [typed, typedElems]
  case attrFloat => obtain ⟨a, _, rfl⟩ := wrap_some h; simp [typed, typedElems]
  case subEnum =>
    split at h
    · rename_i en hen
      obtain ⟨a, ha, rfl⟩ := wrap_some h
      obtain ⟨t, ht⟩ := getSub_some ha
      simp [typed, typedElems, hen, getEnumValue_mem ht]
    · cases h
  case attrEnum =>
    split at h
    · rename_i en hen
      obtain ⟨a, ha, rfl⟩ := wrap_some h
      obtain ⟨t, ht⟩ := getAttr_some ha
      simp [typed, typedElems, hen, getEnumValue_mem ht]
    · cases h
  case subDt => obtain ⟨a, _, rfl⟩ := wrap_some h; simp [typed, typedElems]
  case subDtList => obtain ⟨a, _, rfl⟩ := wrap_some h; simp [typed, typedElems]
  case coordsList => obtain ⟨a, _, rfl⟩ := wrap_some h; simp [typed, typedElems]
  case coordinates =>
    obtain ⟨a, ha, rfl⟩ := wrap_some h
    refine ⟨?_, by simp [typed], by simp [typedElems], by simp, by simp⟩
    simp only [getCoordinates] at ha
    split at ha
    · cases ha
    · rename_i t ht
      split at ha
      · rename_i cs hcs
        simp at ha; subst ha
        exact hco hg t cs ht hcs
      · cases strict <;> simp [handleError] at ha
  case xmlSub =>
    obtain ⟨k, hkm, c, hc, htg, hr⟩ := getXmlSub_some h
    obtain ⟨ht, as, rfl⟩ := hk (.inl hg) k hkm c hc htg v hr
    simp [ht, typedElems, isInst, hc]
  case xmlSubList =>
    split at h
    · cases h
    · rename_i vs hvs
      simp at h; subst h
      have hm := getXmlSubList_mem hvs
      refine ⟨?_, by simp [typed], ?_, by simp, by simp⟩
      · rw [List.all_eq_true]
        intro v hv
        obtain ⟨k, hkm, c, hc, htg, hr⟩ := hm v hv
        obtain ⟨ht, as, rfl⟩ := hk (.inr hg) k hkm c hc htg v hr
        simp [isInst, hc]
      · rw [typedElems_iff]
        intro l hl v hv
        cases hl
        obtain ⟨k, hkm, c, hc, htg, hr⟩ := hm v hv
        exact (hk (.inr hg) k hkm c hc htg v hr).1

/-- What a reader returns is of the type of the item. -/
theorem getKwarg_valOk {L : Lib C} {it : Item C} {strict : Bool} {ns : Str} {nss : NsMap} {e : Xml}
    {kids : List (Kid C F)} (hk : ∀ k ∈ kids, KidOk L P k) (hco : CoordsOk P e) {v : Val C F}
    (h : getKwarg L it strict ns nss e kids = .ok (some v)) : ValOk L P it v :=
  getKwarg_valOk_local (fun _ k hkm c _ _ v hr => hk k hkm c _ _ v hr) (fun _ => hco) h

theorem valOk_of_tryNs {L : Lib C} {it : Item C} {strict : Bool} {nss : NsMap} {e : Xml}
    {kids : List (Kid C F)} (hk : ∀ k ∈ kids, KidOk L P k) (hco : CoordsOk P e) {v : Val C F}
    {ids : List Str}
    (h : tryNs L it strict nss e kids ids = .ok (some v)) : ValOk L P it v := by
  induction ids with
  | nil => cases h
  | cons id ids ih =>
    simp only [tryNs] at h
    split at h
    · cases h
    · rename_i w hw
      simp at h; subst h
      exact getKwarg_valOk hk hco hw
    · exact ih h

/-! ## Constructors on typed arguments -/

theorem keepTruthy_mem {L : Lib C} {l r : List (Val C F)} (h : keepTruthy L l = .ok r) :
    ∀ v ∈ r, v ∈ l := by
  induction l generalizing r with
  | nil => simp [keepTruthy] at h; subst h; simp
  | cons w l ih =>
    simp only [keepTruthy] at h
    split at h
    · cases h
    · split at h
      · cases h
      · rename_i r' hr'
        simp at h; subst h
        intro v hv
        split at hv
        · rcases List.mem_cons.mp hv with rfl | hv
          · simp
          · simp [ih hr' v hv]
        · simp [ih hr' v hv]

/-- Storing a well-typed argument (or the default `None`) keeps the type. -/
theorem normalise_valOk {L : Lib C} {it : Item C} {n : Norm} (hn : normOk it.get n = true)
    {v : Val C F} (hv : v = .none ∨ ValOk L P it v) {w : Val C F} (h : normalise L n v = .ok w) :
    kindOk P it w = true ∧ typed L P w = true ∧ typedElems L P w = true := by
  have hnone : kindOk P it (.none : Val C F) = true ∨ it.get = .xmlSubList ∨ it.get = .coordinates := by
    cases hg : it.get <;> simp [kindOk, hg]
  have hraw : ∀ x : Val C F, x = .none ∨ ValOk L P it x → it.get ≠ .xmlSubList → it.get ≠ .coordinates →
      kindOk P it x = true ∧ typed L P x = true ∧ typedElems L P x = true := by
    rintro x (rfl | hx) h1 h2
    · refine ⟨?_, by simp [typed], by simp [typedElems]⟩
      rcases hnone with h | h | h
      · exact h
      · exact absurd h h1
      · exact absurd h h2
    · exact ⟨hx.1, hx.2.1, hx.2.2.1⟩
  cases n with
  | raw =>
    simp [normalise] at h; subst h
    refine hraw _ hv ?_ ?_ <;> intro hc <;> rw [hc] at hn <;> cases hn
  | orNone =>
    simp only [normalise] at h
    split at h
    · cases h
    · simp at h
      have h1 : it.get ≠ .xmlSubList := by intro hc; rw [hc] at hn; cases hn
      have h2 : it.get ≠ .coordinates := by intro hc; rw [hc] at hn; cases hn
      split at h
      · subst h; exact hraw _ hv h1 h2
      · subst h; exact hraw _ (Or.inl rfl) h1 h2
  | clean =>
    have hg : it.get = .nodeText ∨ it.get = .subText ∨ it.get = .attrText := by
      cases hg : it.get <;> rw [hg] at hn <;> simp [normOk] at hn ⊢
    cases v <;> simp [normalise] at h
    · subst h; rcases hg with hg | hg | hg <;> simp [kindOk, hg, typed, typedElems]
    · split at h <;> subst h <;> rcases hg with hg | hg | hg <;> simp [kindOk, hg, typed, typedElems]
  | orEmpty =>
    have hg : it.get = .nodeText ∨ it.get = .subText ∨ it.get = .attrText := by
      cases hg : it.get <;> rw [hg] at hn <;> simp [normOk] at hn ⊢
    cases v <;> simp [normalise] at h <;> subst h <;> rcases hg with hg | hg | hg <;>
      simp [kindOk, hg, typed, typedElems]
  | listOr =>
    have hg : it.get = .xmlSubList := by cases hg : it.get <;> rw [hg] at hn <;> simp [normOk] at hn ⊢
    cases v <;> simp [normalise] at h <;> subst h
    · simp [kindOk, hg, typed, typedElems, typedList]
    · rcases hv with hv | hv
      · cases hv
      · exact ⟨hv.1, hv.2.1, hv.2.2.1⟩
  | listNotNone =>
    have hg : it.get = .xmlSubList := by cases hg : it.get <;> rw [hg] at hn <;> simp [normOk] at hn ⊢
    cases v <;> simp [normalise] at h <;> subst h
    · simp [kindOk, hg, typed, typedElems, typedList]
    · rcases hv with hv | hv
      · cases hv
      · exact ⟨hv.1, hv.2.1, hv.2.2.1⟩
  | listTruthy =>
    have hg : it.get = .xmlSubList := by cases hg : it.get <;> rw [hg] at hn <;> simp [normOk] at hn ⊢
    cases v <;> simp [normalise] at h
    · subst h; simp [kindOk, hg, typed, typedElems, typedList]
    · split at h
      · cases h
      · rename_i l r hr
        simp at h; subst h
        rcases hv with hv | hv
        · cases hv
        · have hm := keepTruthy_mem hr
          obtain ⟨h1, _, h3, _⟩ := hv
          simp only [kindOk, hg, List.all_eq_true] at h1 ⊢
          rw [typedElems_iff] at h3 ⊢
          refine ⟨fun x hx => h1 x (hm x hx), by simp [typed], ?_⟩
          intro l' hl' x hx
          cases hl'
          exact h3 _ rfl x (hm x hx)
  | coordsOr =>
    have hg : it.get = .coordinates := by cases hg : it.get <;> rw [hg] at hn <;> simp [normOk] at hn ⊢
    cases v <;> simp [normalise] at h <;> subst h
    · simp [kindOk, hg, typed, typedElems]
    · rcases hv with hv | hv
      · cases hv
      · exact ⟨hv.1, hv.2.1, hv.2.2.1⟩

theorem mkTrackItem_dim {w : Option KmlDateTime} {c a : Pt F} {i : TrackItem F}
    (h : mkTrackItem w c a = .ok i) : i.coord.length = 2 ∨ i.coord.length = 3 := by
  simp only [mkTrackItem, mkPoint] at h
  split at h
  · cases h
  · rename_i p hp
    split at hp
    · rename_i hd
      simp at hp; subst hp
      split at h
      · cases h
      · simp at h; subst h; exact hd
    · cases hp

theorem zipItems2_dim {cs as : List (Pt F)} {l : List (TrackItem F)} (h : zipItems2 cs as = .ok l) :
    ∀ i ∈ l, i.coord.length = 2 ∨ i.coord.length = 3 := by
  induction cs generalizing as l with
  | nil => cases as <;> simp [zipItems2] at h; subst h; simp
  | cons c cs ih =>
    simp only [zipItems2] at h
    split at h
    · cases h
    · cases h
    · rename_i i is hi his
      simp at h; subst h
      intro j hj
      rcases List.mem_cons.mp hj with rfl | hj
      · exact mkTrackItem_dim hi
      · exact ih his j hj

theorem zipItems_dim {ws : List (Option KmlDateTime)} {cs as : List (Pt F)} {l : List (TrackItem F)}
    (h : zipItems ws cs as = .ok l) : ∀ i ∈ l, i.coord.length = 2 ∨ i.coord.length = 3 := by
  induction ws generalizing cs as l with
  | nil => exact zipItems2_dim h
  | cons w ws ih =>
    simp only [zipItems] at h
    split at h
    · cases h
    · cases h
    · rename_i i is hi his
      simp at h; subst h
      intro j hj
      rcases List.mem_cons.mp hj with rfl | hj
      · exact mkTrackItem_dim hi
      · exact ih his j hj

theorem zipItems2_error {cs as : List (Pt F)} {x : Err} (h : zipItems2 cs as = .error x) :
    x = .typeError := by
  have hi : ∀ w (c a : Pt F) x, mkTrackItem w c a = .error x → x = .typeError := by
    intro w c a x h
    simp only [mkTrackItem] at h
    split at h
    · simp at h; exact h.symm
    · split at h
      · rename_i e he
        simp at h; subst h
        revert he
        unfold mkAngle
        split <;> simp
        intro h; exact h.symm
      · cases h
  induction cs generalizing as with
  | nil => cases as <;> simp [zipItems2] at h; exact h.symm
  | cons c cs ih =>
    simp only [zipItems2] at h
    split at h
    · rename_i e he; simp at h; subst h; exact hi _ _ _ _ he
    · rename_i e he _; simp at h; subst h; exact ih he
    · cases h

theorem mkTrackItem_error {w : Option KmlDateTime} {c a : Pt F} {x : Err}
    (h : mkTrackItem w c a = .error x) : x = .typeError := by
  simp only [mkTrackItem] at h
  split at h
  · simp at h; exact h.symm
  · split at h
    · rename_i e he
      simp at h; subst h
      revert he
      unfold mkAngle
      split <;> simp
      intro h; exact h.symm
    · cases h

theorem zipItems_error {ws : List (Option KmlDateTime)} {cs as : List (Pt F)} {x : Err}
    (h : zipItems ws cs as = .error x) : x = .typeError := by
  induction ws generalizing cs as with
  | nil => exact zipItems2_error h
  | cons w ws ih =>
    simp only [zipItems] at h
    split at h
    · rename_i e he; simp at h; subst h; exact mkTrackItem_error he
    · rename_i e he _; simp at h; subst h; exact ih he
    · cases h

/-- The keyword arguments come from the items and have their types. -/
def KwOk (L : Lib C) (P : Pt F → Bool) (items : List (Item C)) (kw : List (Str × Val C F)) : Prop :=
  ∀ a v, (a, v) ∈ kw → ∃ it ∈ items, it.attr = a ∧ ValOk L P it v

theorem kwGet_cases {L : Lib C} {items : List (Item C)} {kw : List (Str × Val C F)}
    (h : KwOk L P items kw) (hn : (items.map (·.attr)).Nodup) {it : Item C} (hit : it ∈ items) :
    kwGet it.attr kw = .none ∨ ValOk L P it (kwGet it.attr kw) := by
  unfold kwGet
  cases hd : dget it.attr kw with
  | none => exact Or.inl rfl
  | some v =>
    obtain ⟨it', hit', ha, hv⟩ := h _ v (dget_mem hd)
    have : it' = it := injOn_of_nodup_map hn hit' hit ha
    subst this
    exact Or.inr hv

theorem kwGet_none {L : Lib C} {items : List (Item C)} {kw : List (Str × Val C F)}
    (h : KwOk L P items kw) {a : Str} (ha : ∀ it ∈ items, it.attr ≠ a) : kwGet a kw = .none := by
  unfold kwGet
  cases hd : dget a kw with
  | none => rfl
  | some v =>
    obtain ⟨it, hit, he, _⟩ := h a v (dget_mem hd)
    exact absurd he (ha it hit)

theorem fillSlots_mem {L : Lib C} {kw : List (Str × Val C F)} {slots : List (Str × Norm)}
    {r : List (Str × Val C F)} (h : fillSlots L kw slots = .ok r) {a : Str} {v : Val C F}
    (ha : (a, v) ∈ r) : ∃ n, (a, n) ∈ slots ∧ normalise L n (kwGet a kw) = .ok v := by
  induction slots generalizing r with
  | nil => simp [fillSlots] at h; subst h; cases ha
  | cons p ps ih =>
    obtain ⟨b, m⟩ := p
    simp only [fillSlots] at h
    split at h
    · cases h
    · rename_i w hw
      split at h
      · cases h
      · rename_i vs hvs
        simp at h; subst h
        rcases List.mem_cons.mp ha with ha | ha
        · simp only [Prod.mk.injEq] at ha
          obtain ⟨rfl, rfl⟩ := ha
          exact ⟨m, by simp, hw⟩
        · obtain ⟨n, hn, he⟩ := ih hvs ha
          exact ⟨n, by simp [hn], he⟩

theorem fillSlots_error {L : Lib C} {kw : List (Str × Val C F)} {slots : List (Str × Norm)} {x : Err}
    (h : fillSlots L kw slots = .error x) :
    ∃ a n, (a, n) ∈ slots ∧ normalise L n (kwGet a kw) = .error x := by
  induction slots with
  | nil => cases h
  | cons p ps ih =>
    obtain ⟨b, m⟩ := p
    simp only [fillSlots] at h
    split at h
    · rename_i e he; simp at h; subst h; exact ⟨b, m, by simp, he⟩
    · split at h
      · rename_i e he; simp at h; subst h
        obtain ⟨a, n, hn, hx⟩ := ih he
        exact ⟨a, n, by simp [hn], hx⟩
      · cases h

structure ReadOk (L : Lib C) (c : C) : Prop where
  attrs : ((L.itemsOf c).map (·.attr)).Nodup
  known : (specialArgs (L.info c).special ++ (L.info c).slots.map Prod.fst).Nodup
  classes : ∀ it ∈ L.itemsOf c, classesOk it = true
  slots : ∀ it ∈ L.itemsOf c, slotOk (L.info c) it = true
  schema : (L.info c).special = .schema → ∀ it ∈ L.itemsOf c, it.attr = s% "id" → it.get = .attrText

theorem readOk_iff {L : Lib C} {c : C} (h : readOk L c = true) : ReadOk L c := by
  simp only [readOk, Bool.and_eq_true, decide_eq_true_eq, List.all_eq_true, Bool.or_eq_true] at h
  obtain ⟨⟨⟨⟨h1, h2⟩, h3⟩, h4⟩, h5⟩ := h
  refine ⟨h1, h2, h3, h4, ?_⟩
  intro hs it hit ha
  rcases h5 with h5 | h5
  · exact absurd hs h5
  · rcases h5 it hit with h | h
    · exact absurd ha h
    · exact h

/-- Every item's argument is known to the constructor. -/
theorem ReadOk.attr_known {L : Lib C} {c : C} (h : ReadOk L c) {it : Item C} (hit : it ∈ L.itemsOf c) :
    it.attr ∈ specialArgs (L.info c).special ++ (L.info c).slots.map Prod.fst := by
  rw [List.mem_append]
  rcases slotOk_iff (h.slots it hit) with ⟨n, hn, _⟩ | ⟨hs, h⟩
  · exact Or.inr (List.mem_map.mpr ⟨_, hn, rfl⟩)
  · left
    rw [hs]
    rcases h with h | h | h <;> rw [h.1] <;> decide

theorem extras_nil {L : Lib C} {c : C} (hR : ReadOk L c) {kw : List (Str × Val C F)}
    (hkw : KwOk L P (L.itemsOf c) kw) :
    kw.filter (fun p => decide (p.1 ∉ specialArgs (L.info c).special ++
        (L.info c).slots.map Prod.fst)) = [] := by
  rw [List.filter_eq_nil_iff]
  rintro ⟨a, v⟩ hp
  obtain ⟨it, hit, ha, _⟩ := hkw a v hp
  have := hR.attr_known hit
  rw [ha] at this
  simp only [decide_eq_true_eq]
  exact fun h => h this

/-- A slot's argument is missing or typed, with a suitable norm. -/
theorem slot_cases {L : Lib C} {c : C} (hR : ReadOk L c) {kw : List (Str × Val C F)}
    (hkw : KwOk L P (L.itemsOf c) kw) {a : Str} {n : Norm} (hs : (a, n) ∈ (L.info c).slots) :
    kwGet a kw = .none ∨ ∃ it ∈ L.itemsOf c, it.attr = a ∧ normOk it.get n = true ∧
      ValOk L P it (kwGet a kw) := by
  by_cases hi : ∃ it ∈ L.itemsOf c, it.attr = a
  · obtain ⟨it, hit, rfl⟩ := hi
    rcases kwGet_cases hkw hR.attrs hit with h | h
    · exact Or.inl h
    · refine Or.inr ⟨it, hit, rfl, ?_, h⟩
      have hk := hR.known
      rw [List.nodup_append] at hk
      have hm : it.attr ∈ (L.info c).slots.map Prod.fst := List.mem_map.mpr ⟨_, hs, rfl⟩
      rcases slotOk_iff (hR.slots it hit) with ⟨n', hn', ho⟩ | ⟨hsp, h'⟩
      · have : ((it.attr, n) : Str × Norm) = (it.attr, n') := injOn_of_nodup_map hk.2.1 hs hn' rfl
        cases this
        exact ho
      · exfalso
        refine hk.2.2 it.attr ?_ _ hm rfl
        rw [hsp]
        rcases h' with h' | h' | h' <;> rw [h'.1] <;> decide
  · exact Or.inl (kwGet_none hkw fun it hit he => hi ⟨it, hit, he⟩)

theorem normalise_none_typed {L : Lib C} {n : Norm} {w : Val C F}
    (h : normalise L n (.none : Val C F) = .ok w) :
    typed L P w = true ∧ typedElems L P w = true := by
  cases n <;> simp [normalise, truthy, info, Info.plain] at h <;> subst h <;>
    simp [typed, typedElems, typedList]

theorem ReadOk.no_trackItems {L : Lib C} {c : C} (hR : ReadOk L c) (hs : (L.info c).special = .track) :
    ∀ it ∈ L.itemsOf c, it.attr ≠ s% "track_items" := by
  intro it hit ha
  have hk := hR.known
  rw [List.nodup_append] at hk
  rcases slotOk_iff (hR.slots it hit) with ⟨n', hn', ho⟩ | ⟨hsp, h'⟩
  · refine hk.2.2 it.attr ?_ it.attr (List.mem_map.mpr ⟨_, hn', rfl⟩) rfl
    rw [hs, ha]; decide
  · rcases h' with h' | h' | h' <;> rw [h'.1] at ha <;> revert ha <;> decide

theorem ReadOk.track_kinds {L : Lib C} {c : C} (hR : ReadOk L c) (hs : (L.info c).special = .track)
    {it : Item C} (hit : it ∈ L.itemsOf c) :
    (it.attr = s% "whens" → it.get = .subDtList) ∧ (it.attr = s% "coords" → it.get = .coordsList) ∧
    (it.attr = s% "angles" → it.get = .coordsList) := by
  have hk := hR.known
  rw [List.nodup_append] at hk
  have hno : ∀ a ∈ specialArgs Special.track, it.attr = a →
      ∀ n, (it.attr, n) ∈ (L.info c).slots → False := by
    intro a ha he n hn
    refine hk.2.2 it.attr ?_ it.attr (List.mem_map.mpr ⟨_, hn, rfl⟩) rfl
    rw [hs, he]; exact ha
  refine ⟨?_, ?_, ?_⟩ <;> intro ha <;>
    rcases slotOk_iff (hR.slots it hit) with ⟨n', hn', ho⟩ | ⟨hsp, h'⟩
  all_goals first
    | exact (hno _ (by decide) ha n' hn').elim
    | (rcases h' with h' | h' | h' <;>
        first | exact h'.2 | (exfalso; rw [h'.1] at ha; revert ha; decide))

/-- The track arguments. -/
theorem track_args {L : Lib C} {c : C} (hR : ReadOk L c) (hs : (L.info c).special = .track)
    {kw : List (Str × Val C F)} (hkw : KwOk L P (L.itemsOf c) kw) :
    kwGet (s% "track_items") kw = .none ∧
    (kwGet (s% "whens") kw = .none ∨ ∃ l, kwGet (s% "whens") kw = .whens l) ∧
    (kwGet (s% "coords") kw = .none ∨ ∃ l, kwGet (s% "coords") kw = .coords l) ∧
    (kwGet (s% "angles") kw = .none ∨ ∃ l, kwGet (s% "angles") kw = .coords l) := by
  refine ⟨kwGet_none hkw (hR.no_trackItems hs), ?_, ?_, ?_⟩
  · by_cases hi : ∃ it ∈ L.itemsOf c, it.attr = s% "whens"
    · obtain ⟨it, hit, ha⟩ := hi
      rw [← ha]
      rcases kwGet_cases hkw hR.attrs hit with h | h
      · exact Or.inl h
      · exact Or.inr (h.2.2.2.1 ((hR.track_kinds hs hit).1 ha))
    · exact Or.inl (kwGet_none hkw fun it hit he => hi ⟨it, hit, he⟩)
  · by_cases hi : ∃ it ∈ L.itemsOf c, it.attr = s% "coords"
    · obtain ⟨it, hit, ha⟩ := hi
      rw [← ha]
      rcases kwGet_cases hkw hR.attrs hit with h | h
      · exact Or.inl h
      · exact Or.inr (h.2.2.2.2 ((hR.track_kinds hs hit).2.1 ha))
    · exact Or.inl (kwGet_none hkw fun it hit he => hi ⟨it, hit, he⟩)
  · by_cases hi : ∃ it ∈ L.itemsOf c, it.attr = s% "angles"
    · obtain ⟨it, hit, ha⟩ := hi
      rw [← ha]
      rcases kwGet_cases hkw hR.attrs hit with h | h
      · exact Or.inl h
      · exact Or.inr (h.2.2.2.2 ((hR.track_kinds hs hit).2.2 ha))
    · exact Or.inl (kwGet_none hkw fun it hit he => hi ⟨it, hit, he⟩)

/-- `trackItems` with no `track_items` argument. -/
theorem trackItems_eq {kw : List (Str × Val C F)} (h0 : kwGet (s% "track_items") kw = .none)
    {ws : List (Option KmlDateTime)} {cs as : List (Pt F)}
    (h1 : kwGet (s% "whens") kw = .none ∧ ws = [] ∨ kwGet (s% "whens") kw = .whens ws)
    (h2 : kwGet (s% "coords") kw = .none ∧ cs = [] ∨ kwGet (s% "coords") kw = .coords cs)
    (h3 : kwGet (s% "angles") kw = .none ∧ as = [] ∨ kwGet (s% "angles") kw = .coords as) :
    trackItems kw = if ws ≠ [] ∧ cs ≠ [] then zipItems ws cs as else .ok [] := by
  unfold trackItems
  rw [h0]
  rcases h1 with ⟨h1, rfl⟩ | h1 <;> rcases h2 with ⟨h2, rfl⟩ | h2 <;>
    rcases h3 with ⟨h3, rfl⟩ | h3 <;> rw [h1, h2, h3] <;> simp

theorem track_args' {L : Lib C} {c : C} (hR : ReadOk L c) (hs : (L.info c).special = .track)
    {kw : List (Str × Val C F)} (hkw : KwOk L P (L.itemsOf c) kw) :
    ∃ ws cs as, trackItems kw = if ws ≠ [] ∧ cs ≠ [] then zipItems ws cs as else .ok [] := by
  obtain ⟨h0, h1, h2, h3⟩ := track_args hR hs hkw
  have g1 : ∃ ws, kwGet (s% "whens") kw = .none ∧ ws = [] ∨ kwGet (s% "whens") kw = .whens ws := by
    rcases h1 with h | ⟨l, h⟩
    · exact ⟨[], Or.inl ⟨h, rfl⟩⟩
    · exact ⟨l, Or.inr h⟩
  have g2 : ∃ ws, kwGet (s% "coords") kw = .none ∧ ws = [] ∨ kwGet (s% "coords") kw = .coords ws := by
    rcases h2 with h | ⟨l, h⟩
    · exact ⟨[], Or.inl ⟨h, rfl⟩⟩
    · exact ⟨l, Or.inr h⟩
  have g3 : ∃ ws, kwGet (s% "angles") kw = .none ∧ ws = [] ∨ kwGet (s% "angles") kw = .coords ws := by
    rcases h3 with h | ⟨l, h⟩
    · exact ⟨[], Or.inl ⟨h, rfl⟩⟩
    · exact ⟨l, Or.inr h⟩
  obtain ⟨ws, g1⟩ := g1
  obtain ⟨cs, g2⟩ := g2
  obtain ⟨as, g3⟩ := g3
  exact ⟨ws, cs, as, trackItems_eq h0 g1 g2 g3⟩

/-- Constructors applied to typed arguments return typed objects. -/
theorem construct_typed {L : Lib C} {c : C} (hR : ReadOk L c) {ns : Str} {nss : NsMap}
    {kw : List (Str × Val C F)} (hkw : KwOk L P (L.itemsOf c) kw) {v : Val C F}
    (h : construct L c ns nss kw = .ok v) :
    typed L P v = true ∧ ∃ as, v = .obj c ns (mergeNs nss) as := by
  have hslot := fun {a n} (ha : (a, n) ∈ (L.info c).slots) => construct_slot h hR.known ha
  obtain ⟨ex, sp, sl, hex, hsp, hsl, rfl⟩ := construct_ok h
  rw [extras_nil hR hkw] at hex
  subst hex
  refine ⟨?_, _, rfl⟩
  have hspT : ∀ a v, (a, v) ∈ sp → typed L P v = true ∧ typedElems L P v = true := by
    intro a v hv
    cases hs : (L.info c).special <;> rw [hs] at hsp <;> simp only [specialInit] at hsp
    · simp at hsp; subst hsp; cases hv
    · split at hsp
      · cases hsp
      · split at hsp
        · cases hsp
        · simp at hsp; subst hsp; cases hv
      · cases hsp
    · split at hsp
      · cases hsp
      · simp at hsp; subst hsp
        simp at hv
        rw [hv.2]
        simp [typed, typedElems]
    · split at hsp
      · cases hsp
      · simp at hsp; subst hsp; cases hv
    · simp at hsp; subst hsp; cases hv
  have hslT : ∀ a v, (a, v) ∈ sl → typed L P v = true ∧ typedElems L P v = true := by
    intro a v hv
    obtain ⟨n, hn, hno⟩ := fillSlots_mem hsl hv
    rcases slot_cases hR hkw hn with h0 | ⟨it, hit, _, hnm, hv'⟩
    · rw [h0] at hno; exact normalise_none_typed hno
    · exact (normalise_valOk hnm (Or.inr hv') hno).2
  have hall : ∀ a v, (a, v) ∈ [] ++ sp ++ sl → typed L P v = true ∧ typedElems L P v = true := by
    intro a v hv
    rw [List.nil_append, List.mem_append] at hv
    rcases hv with hv | hv
    · exact hspT a v hv
    · exact hslT a v hv
  rw [typed_obj]
  refine ⟨?_, ?_, fun a v hv => (hall a v hv).1, fun a l hl => typedElems_iff.mp (hall a _ hl).2 l rfl⟩
  · intro it hit
    by_cases h1 : it.get = .subDtList
    · simp [kindOk, h1]
    · by_cases h2 : it.get = .coordsList
      · simp [kindOk, h2]
      · obtain ⟨n, hn, hno⟩ := slotOk_slot (hR.slots it hit) h1 h2
        obtain ⟨attrs, w, he, hw, hd⟩ := hslot hn
        simp only [Val.obj.injEq] at he
        have he := he.2.2.2
        have : attrOf it.attr ([] ++ sp ++ sl) = w := by
          rw [he]; unfold attrOf; rw [hd]; rfl
        rw [this]
        exact (normalise_valOk hno (kwGet_cases hkw hR.attrs hit) hw).1
  · intro hs
    rw [hs] at hsp
    simp only [specialInit] at hsp
    split at hsp
    · cases hsp
    · rename_i l hl
      simp at hsp; subst hsp
      simp only [trackOk, attr_eq, attrOf, List.nil_append, List.cons_append, dget, if_true,
        Option.getD_some]
      obtain ⟨ws, cs, as, ht⟩ := track_args' hR hs hkw
      rw [ht] at hl
      split at hl
      · have := zipItems_dim hl
        simpa using this
      · simp at hl; subst hl; rfl

theorem keepTruthy_error {L : Lib C} {l : List (Val C F)} {x : Err} (h : keepTruthy L l = .error x) :
    ∃ v ∈ l, truthy L v = .error x := by
  induction l with
  | nil => cases h
  | cons w l ih =>
    simp only [keepTruthy] at h
    split at h
    · rename_i e he; simp at h; subst h; exact ⟨w, by simp, he⟩
    · split at h
      · rename_i e he; simp at h; subst h
        obtain ⟨v, hv, hx⟩ := ih he
        exact ⟨v, by simp [hv], hx⟩
      · cases h

/-- `TypeError` is possible when tuples satisfy `P`. -/
def TypeErr (P : Pt F → Bool) : Prop :=
  ∃ l : List (Pt F), l.all P = true ∧ (mkLine l = .error .type ∨ mkRing l = .error .type)

theorem not_typeErr_dim23 : ¬ TypeErr (F := F) dim23 := by
  rintro ⟨l, hl, h | h⟩
  · exact mkLine_noType hl h
  · exact mkRing_noType hl h

theorem truthy_typed_error {L : Lib C} (hL : ∀ c, boolOk L c = true) {v : Val C F}
    (ht : typed L P v = true) {x : Err} (h : truthy L v = .error x) : x = .typeError ∧ TypeErr P :=
  (infoOk hL (T := TypeErr P) (fun l hl h => ⟨l, hl, h⟩) v ht).bool x h

/-- The errors of constructors applied to typed arguments. -/
theorem construct_error {L : Lib C} (hL : ∀ c, boolOk L c = true) {c : C} (hR : ReadOk L c) {ns : Str}
    {nss : NsMap} {kw : List (Str × Val C F)} (hkw : KwOk L P (L.itemsOf c) kw) {x : Err}
    (h : construct L c ns nss kw = .error x) :
    (x = .typeError ∧ (TypeErr P ∨ (L.info c).special = .track ∧ trackItems kw = .error .typeError)) ∨
    x = .schemaError ∧ (L.info c).special = .schema ∧
      (kwGet (s% "id") kw = .none ∨ kwGet (s% "id") kw = .str []) := by
  have hkwT : ∀ a, typed L P (kwGet a kw) = true := by
    intro a
    unfold kwGet
    cases hd : dget a kw with
    | none => exact typed_none
    | some v => obtain ⟨it, _, _, hv⟩ := hkw a v (dget_mem hd); exact hv.2.1
  unfold construct at h
  simp only [extras_nil hR hkw] at h
  rw [if_neg (by simp)] at h
  split at h
  · rename_i e he
    simp at h; subst h
    cases hs : (L.info c).special <;> rw [hs] at he <;> simp only [specialInit] at he
    · cases he
    · split at he
      · rename_i hid; simp at he; exact Or.inr ⟨he.symm, rfl, Or.inl hid⟩
      · rename_i t hid
        split at he
        · rename_i ht
          simp at he
          simp at ht
          rw [ht] at hid
          exact Or.inr ⟨he.symm, rfl, Or.inr hid⟩
        · cases he
      · rename_i h1 h2
        exfalso
        by_cases hi : ∃ it ∈ L.itemsOf c, it.attr = s% "id"
        · obtain ⟨it, hit, ha⟩ := hi
          have hg := hR.schema hs it hit ha
          rcases kwGet_cases hkw hR.attrs hit with h | h
          · rw [ha] at h; exact h1 h
          · have hk := h.1
            simp only [kindOk, hg] at hk
            rw [ha] at hk
            revert hk
            cases hv : kwGet (s% "id") kw <;> simp
            · exact h1 hv
            · exact h2 _ hv
        · exact h1 (kwGet_none hkw fun it hit he => hi ⟨it, hit, he⟩)
    · split at he
      · rename_i e' he'
        simp at he; subst he
        obtain ⟨ws, cs, as, ht⟩ := track_args' hR hs hkw
        rw [ht] at he'
        split at he'
        · rename_i hne
          have hx := zipItems_error he'
          exact Or.inl ⟨hx, Or.inr ⟨rfl, by rw [ht, if_pos hne, he', hx]⟩⟩
        · cases he'
      · cases he
    · split at he
      · rename_i e' he'
        simp at he; subst he
        exact Or.inl ((truthy_typed_error hL (hkwT _) he').imp id Or.inl)
      · cases he
    · cases he
  · split at h
    · rename_i e he
      simp at h; subst h
      obtain ⟨a, n, hn, hx⟩ := fillSlots_error he
      rcases slot_cases hR hkw hn with h0 | ⟨it, hit, ha, hnm, hv⟩
      · rw [h0] at hx
        exfalso
        cases n <;> simp [normalise, truthy, info, Info.plain] at hx
      · left
        cases n with
        | raw => cases hx
        | orNone =>
          simp only [normalise] at hx
          split at hx
          · rename_i e' he'
            simp at hx; subst hx
            exact (truthy_typed_error hL hv.2.1 he').imp id Or.inl
          · cases hx
        | clean =>
          exfalso
          have hg : it.get = .nodeText ∨ it.get = .subText ∨ it.get = .attrText := by
            cases hg : it.get <;> rw [hg] at hnm <;> simp [normOk] at hnm ⊢
          have hk := hv.1
          cases hw : kwGet a kw <;> rw [hw] at hx hk <;> simp [normalise] at hx <;>
            rcases hg with hg | hg | hg <;> simp [kindOk, hg] at hk
        | orEmpty =>
          exfalso
          have hg : it.get = .nodeText ∨ it.get = .subText ∨ it.get = .attrText := by
            cases hg : it.get <;> rw [hg] at hnm <;> simp [normOk] at hnm ⊢
          have hk := hv.1
          cases hw : kwGet a kw <;> rw [hw] at hx hk <;> simp [normalise] at hx <;>
            rcases hg with hg | hg | hg <;> simp [kindOk, hg] at hk
        | listOr =>
          exfalso
          have hg : it.get = .xmlSubList := by cases hg : it.get <;> rw [hg] at hnm <;> simp [normOk] at hnm ⊢
          have hk := hv.1
          cases hw : kwGet a kw <;> rw [hw] at hx hk <;> simp [normalise] at hx <;>
            simp [kindOk, hg] at hk
        | listNotNone =>
          exfalso
          have hg : it.get = .xmlSubList := by cases hg : it.get <;> rw [hg] at hnm <;> simp [normOk] at hnm ⊢
          have hk := hv.1
          cases hw : kwGet a kw <;> rw [hw] at hx hk <;> simp [normalise] at hx <;>
            simp [kindOk, hg] at hk
        | listTruthy =>
          have hg : it.get = .xmlSubList := by cases hg : it.get <;> rw [hg] at hnm <;> simp [normOk] at hnm ⊢
          have hk := hv.1
          cases hw : kwGet a kw <;> rw [hw] at hx hk <;> simp [kindOk, hg] at hk
          rename_i l
          simp only [normalise] at hx
          split at hx
          · rename_i e' he'
            simp at hx; subst hx
            obtain ⟨w, hwl, hwx⟩ := keepTruthy_error he'
            have := typedElems_iff.mp hv.2.2.1 l hw w hwl
            exact (truthy_typed_error hL this hwx).imp id Or.inl
          · cases hx
        | coordsOr =>
          exfalso
          have hg : it.get = .coordinates := by cases hg : it.get <;> rw [hg] at hnm <;> simp [normOk] at hnm ⊢
          have hk := hv.1
          cases hw : kwGet a kw <;> rw [hw] at hx hk <;> simp [normalise] at hx <;>
            simp [kindOk, hg] at hk
    · cases h

/-! ## Reading -/

theorem kwOk_of_getKwargs {L : Lib C} {strict : Bool} {nss : NsMap} {e : Xml} {kids : List (Kid C F)}
    (hk : ∀ k ∈ kids, KidOk L P k) (hco : CoordsOk P e) {items : List (Item C)} (hn : (items.map (·.attr)).Nodup)
    {kw : List (Str × Val C F)} (h : getKwargs L strict nss e kids items [] = .ok kw) :
    KwOk L P items kw := by
  obtain ⟨r, hr, rfl⟩ := (getKwargs_ok hn).mp h
  intro a v hv
  simp only [kwOf, List.mem_filterMap, Option.map_eq_some_iff] at hv
  obtain ⟨it, hit, w, hw, he⟩ := hv
  cases he
  have := hr it hit
  rw [hw] at this
  exact ⟨it, hit, rfl, valOk_of_tryNs hk hco this⟩

theorem kidOk_parse {L : Lib C} (hR : ∀ c, ReadOk L c) {strict : Bool} (e : Xml)
    (hco : ∀ d, Sub e d → CoordsOk P d) : KidOk L P ⟨e.tag, parse L strict e⟩ := by
  induction e using Xml.ind with
  | h t a x ks ih =>
    intro c ns nss v h
    simp only [parse_eq, parseStep] at h
    split at h
    · cases h
    · rename_i kw hkw
      have hk : ∀ k ∈ kidsOf (parse (F := F) L strict) ks, KidOk L P k := by
        intro k hk
        simp only [kidsOf, List.mem_map] at hk
        obtain ⟨k', hk', rfl⟩ := hk
        exact ih k' hk' fun d hd => hco d (.kid hk' hd)
      have := construct_typed (hR c) (kwOk_of_getKwargs hk (hco _ (.refl _)) (hR c).attrs hkw) h
      rwa [mergeNs_idem] at this

/-- What reading returns is a well-typed instance of the class asked for. -/
theorem parse_typed {L : Lib C} (hR : ∀ c, ReadOk L c) {strict : Bool} {e : Xml} {c : C} {ns : Str}
    {nss : NsMap} {v : Val C F} (h : parse L strict e c ns nss = .ok v) :
    typed L anyPt v = true ∧ ∃ as, v = .obj c ns (mergeNs nss) as :=
  kidOk_parse hR e (fun d _ => coordsOk_any d) c ns nss v h

/-- The same with a condition on coordinate tuples. -/
theorem parse_typedP {L : Lib C} (hR : ∀ c, ReadOk L c) {strict : Bool} {e : Xml}
    (hco : ∀ d, Sub e d → CoordsOk P d) {c : C} {ns : Str}
    {nss : NsMap} {v : Val C F} (h : parse L strict e c ns nss = .ok v) :
    typed L P v = true ∧ ∃ as, v = .obj c ns (mergeNs nss) as :=
  kidOk_parse hR e hco c ns nss v h

/-! ## Where reading errors come from -/

theorem getSub_error {α : Type} {conv : Str → Option α} {e : Xml} {tag : Str} {strict : Bool} {x : Err}
    (h : getSub conv e tag strict = .error x) : x = .parseError ∧ strict = true := by
  simp only [getSub] at h
  split at h
  · cases h
  · split at h
    · cases h
    · split at h
      · cases h
      · cases strict <;> simp [handleError] at h; exact ⟨h.symm, rfl⟩

theorem getAttr_error {α : Type} {conv : Str → Option α} {e : Xml} {key : Str} {strict : Bool} {x : Err}
    (h : getAttr conv e key strict = .error x) : x = .parseError ∧ strict = true := by
  simp only [getAttr] at h
  split at h
  · cases h
  · split at h
    · cases h
    · cases strict <;> simp [handleError] at h; exact ⟨h.symm, rfl⟩

theorem wrap_error {α : Type} {f : α → Val C F} {r : Except Err (Option α)} {x : Err}
    (h : wrap f r = .error x) : r = .error x := by
  cases r with
  | error e => simpa [wrap] using h
  | ok o => cases o <;> cases h

theorem nonEmptyList_error {α : Type} {r : Except Err (List α)} {x : Err}
    (h : nonEmptyList r = .error x) : r = .error x := by
  cases r with
  | error e => simpa [nonEmptyList] using h
  | ok m => cases m <;> simp [nonEmptyList] at h

theorem getDts_error {arrowGet : Str → Option (Date × Time)} {strict : Bool} {l : List Xml} {x : Err}
    (h : getDts arrowGet strict l = .error x) : x = .parseError ∧ strict = true ∨ x = .typeError := by
  induction l with
  | nil => cases h
  | cons n l ih =>
    simp only [getDts] at h
    split at h
    · simp at h; exact Or.inr h.symm
    · split at h
      · split at h
        · rename_i e he; simp at h; subst h; exact ih he
        · cases h
      · split at h
        · rename_i e he
          simp at h; subst h
          cases strict <;> simp [handleError] at he; exact Or.inl ⟨he.symm, rfl⟩
        · exact ih h

theorem getCoordArgs_error {strict : Bool} {l : List Xml} {x : Err}
    (h : getCoordArgs (F := F) strict l = .error x) : x = .parseError ∧ strict = true := by
  induction l with
  | nil => cases h
  | cons n l ih =>
    simp only [getCoordArgs] at h
    split at h
    · exact ih h
    · split at h
      · exact ih h
      · split at h
        · split at h
          · rename_i e he; simp at h; subst h; exact ih he
          · cases h
        · split at h
          · rename_i e he
            simp at h; subst h
            cases strict <;> simp [handleError] at he; exact ⟨he.symm, rfl⟩
          · exact ih h

theorem readAll_error {c : C} {ns : Str} {nss : NsMap} {ks : List (Kid C F)} {x : Err}
    (h : readAll c ns nss ks = .error x) : ∃ k ∈ ks, k.read c ns nss = .error x := by
  induction ks with
  | nil => cases h
  | cons k ks ih =>
    simp only [readAll] at h
    split at h
    · rename_i e he; simp at h; subst h; exact ⟨k, by simp, he⟩
    · split at h
      · rename_i e he; simp at h; subst h
        obtain ⟨k', hk', he'⟩ := ih he
        exact ⟨k', by simp [hk'], he'⟩
      · cases h

/-- The classes are all library classes. -/
theorem classes_cls {it : Item C} (h : classesOk it = true) (hg : it.get = .xmlSub ∨ it.get = .xmlSubList) :
    ∀ t ∈ it.classes, ∃ c, t = .cls c := by
  have : (it.classes.all fun t => match t with
    | .cls _ => true
    | _ => false) = true := by
    rcases hg with hg | hg <;> simpa only [classesOk, hg] using h
  rw [List.all_eq_true] at this
  intro t ht
  have := this t ht
  cases t <;> simp at this ⊢

theorem getXmlSub_error {L : Lib C} {kids : List (Kid C F)} {ns : Str} {nss : NsMap}
    {cs : List (PyType C)} (hcs : ∀ t ∈ cs, ∃ c, t = .cls c) {x : Err}
    (h : getXmlSub L kids ns nss cs = .error x) : ∃ k ∈ kids, ∃ c, k.read c ns nss = .error x := by
  induction cs with
  | nil => cases h
  | cons t cs ih =>
    obtain ⟨c, rfl⟩ := hcs t (by simp)
    simp only [getXmlSub] at h
    split at h
    · rename_i k hk
      split at h
      · rename_i e he
        simp at h; subst h
        exact ⟨k, List.mem_of_find?_eq_some hk, c, he⟩
      · cases h
    · exact ih (fun t ht => hcs t (by simp [ht])) h

theorem getXmlSubList_error {L : Lib C} {kids : List (Kid C F)} {ns : Str} {nss : NsMap}
    {cs : List (PyType C)} (hcs : ∀ t ∈ cs, ∃ c, t = .cls c) {x : Err}
    (h : getXmlSubList L kids ns nss cs = .error x) : ∃ k ∈ kids, ∃ c, k.read c ns nss = .error x := by
  induction cs with
  | nil => cases h
  | cons t cs ih =>
    obtain ⟨c, rfl⟩ := hcs t (by simp)
    simp only [getXmlSubList] at h
    split at h
    · rename_i e he
      simp at h; subst h
      obtain ⟨k, hk, hx⟩ := readAll_error he
      exact ⟨k, (List.mem_filter.mp hk).1, c, hx⟩
    · split at h
      · rename_i e he
        simp at h; subst h
        exact ih (fun t ht => hcs t (by simp [ht])) he
      · cases h

/-- The errors of one reader. -/
theorem getKwarg_error {L : Lib C} {it : Item C} (hc : classesOk it = true) {strict : Bool} {ns : Str}
    {nss : NsMap} {e : Xml} {kids : List (Kid C F)} {x : Err}
    (h : getKwarg L it strict ns nss e kids = .error x) :
    (x = .parseError ∧ strict = true) ∨ (x = .typeError ∧ it.get = .subDtList) ∨
    (x = .valueError ∧ it.get = .attrInt ∧
      ∃ t, e.get (ns ++ it.node) = some t ∧ t ≠ [] ∧ intParse t = none) ∨
    ∃ k ∈ kids, ∃ c, k.read c ns nss = .error x := by
  unfold getKwarg at h
  cases hg : it.get <;> rw [hg] at h <;> simp only at h
  case nodeText => cases h
  case subText => cases h
  case attrText => cases h
  case subBool =>
    split at h
    · exact Or.inl (getSub_error (wrap_error h))
    · rename_i hne
      simp only [classesOk, hg, decide_eq_true_eq] at hc
      exact absurd hc hne
  case subInt => exact Or.inl (getSub_error (wrap_error h))
  case attrInt =>
    have h := wrap_error h
    simp only [getAttrInt, getAttrText] at h
    split at h
    · cases h
    · rename_i t ht
      split at h
      · cases h
      · rename_i hi
        simp at h; subst h
        refine Or.inr (Or.inr (Or.inl ⟨rfl, rfl, t, ?_⟩))
        split at ht
        · cases ht
        · rename_i s hs
          split at ht
          · cases ht
          · rename_i hne
            simp at ht; subst ht
            exact ⟨hs, by simpa using hne, hi⟩
  case subFloat => exact Or.inl (getSub_error (wrap_error h))
  case attrFloat => exact Or.inl (getAttr_error (wrap_error h))
  case subEnum =>
    split at h
    · exact Or.inl (getSub_error (wrap_error h))
    · rename_i hne
      exfalso
      simp only [classesOk, hg] at hc
      first
      | cases hc
      | (split at hc
         · rename_i en hen; exact hne en hen
         · cases hc)
  case attrEnum =>
    split at h
    · exact Or.inl (getAttr_error (wrap_error h))
    · rename_i hne
      exfalso
      simp only [classesOk, hg] at hc
      first
      | cases hc
      | (split at hc
         · rename_i en hen; exact hne en hen
         · cases hc)
  case subDt => exact Or.inl (getSub_error (wrap_error h))
  case subDtList =>
    rcases getDts_error (nonEmptyList_error (wrap_error h)) with h | h
    · exact Or.inl h
    · exact Or.inr (Or.inl ⟨h, rfl⟩)
  case coordsList => exact Or.inl (getCoordArgs_error (nonEmptyList_error (wrap_error h)))
  case coordinates =>
    have h := wrap_error h
    simp only [getCoordinates] at h
    split at h
    · cases h
    · split at h
      · cases h
      · cases strict <;> simp [handleError] at h; exact Or.inl ⟨h.symm, rfl⟩
  case xmlSub => exact Or.inr (Or.inr (Or.inr (getXmlSub_error (classes_cls hc (Or.inl hg)) h)))
  case xmlSubList =>
    split at h
    · rename_i e' he'
      simp at h; subst h
      exact Or.inr (Or.inr (Or.inr (getXmlSubList_error (classes_cls hc (Or.inr hg)) he')))
    · cases h

theorem slot_dtList {i : ClsInfo C} {it : Item C} (h : slotOk i it = true) (hg : it.get = .subDtList) :
    i.special = .track := by
  rcases slotOk_iff h with ⟨n, _, hn⟩ | ⟨h, _⟩
  · rw [hg] at hn; cases n <;> cases hn
  · exact h

theorem Sub.trans {a b c : Xml} (h : Sub a b) (h' : Sub b c) : Sub a c := by
  induction h with
  | refl => exact h'
  | kid hk _ ih => exact .kid hk (ih h')

theorem getKwarg_attrText {L : Lib C} {it : Item C} (hg : it.get = .attrText) {strict : Bool} {ns : Str}
    {nss : NsMap} {e : Xml} {kids : List (Kid C F)} {o : Option (Val C F)}
    (h : getKwarg L it strict ns nss e kids = .ok o) :
    (o = none ∧ ∀ t, e.get (ns ++ it.node) = some t → t = []) ∨ ∃ t, t ≠ [] ∧ o = some (.str t) := by
  unfold getKwarg at h
  rw [hg] at h
  simp only [getAttrText, Except.ok.injEq] at h
  split at h
  · rename_i hn; left; exact ⟨by simpa using h.symm, by intro t ht; rw [hn] at ht; cases ht⟩
  · rename_i s hs
    split at h
    · rename_i he
      left
      refine ⟨by simpa using h.symm, ?_⟩
      intro t ht
      rw [hs] at ht
      cases ht
      simpa using he
    · rename_i he
      exact Or.inr ⟨s, by simpa using he, by simpa using h.symm⟩

theorem schema_cause {L : Lib C} {c : C} (hR : ReadOk L c) {strict : Bool} {nss : NsMap} {e : Xml}
    {kids : List (Kid C F)} {kw : List (Str × Val C F)}
    (hkw : getKwargs L strict nss e kids (L.itemsOf c) [] = .ok kw)
    (hs : (L.info c).special = .schema)
    (hid : kwGet (s% "id") kw = .none ∨ kwGet (s% "id") kw = .str []) :
    Cause F L strict nss e c .schemaError := by
  refine ⟨hs, ?_⟩
  intro it hit ha id hidm t ht
  obtain ⟨r, hr, rfl⟩ := (getKwargs_ok hR.attrs).mp hkw
  have hg := hR.schema hs it hit ha
  have hrit := hr it hit
  have hd := dget_kwOf (r := r) hR.attrs hit
  unfold kwGet at hid
  rw [← ha, hd] at hid
  have hnone : r it = none := by
    cases hv : r it with
    | none => rfl
    | some v =>
      exfalso
      rw [hv] at hrit hid
      obtain ⟨pre, id', post, _, _, h2⟩ := tryNs_some.mp hrit
      rcases getKwarg_attrText hg h2 with ⟨h, _⟩ | ⟨t', ht', h⟩
      · cases h
      · cases h
        rcases hid with hid | hid
        · cases hid
        · simp at hid; exact ht' hid
  rw [hnone] at hrit
  have := tryNs_none.mp hrit id hidm
  rcases getKwarg_attrText hg this with ⟨_, h⟩ | ⟨t', _, h⟩
  · exact h t ht
  · cases h

/-- Every reading error has a cause in the element or in a descendant. -/
theorem parse_error_cause {L : Lib C} (hL : ∀ c, boolOk L c = true) (hR : ∀ c, ReadOk L c) {strict : Bool}
    (e : Xml) : ∀ c ns nss x, parse (F := F) L strict e c ns nss = .error x →
      ∃ d c', Sub e d ∧ Cause F L strict (mergeNs nss) d c' x := by
  induction e using Xml.ind with
  | h t a tx ks ih =>
    intro c ns nss x h
    simp only [parse_eq, parseStep] at h
    split at h
    · rename_i e he
      simp at h; subst h
      obtain ⟨it, hit, hx⟩ := getKwargs_error he
      obtain ⟨id, hid, hx⟩ := tryNs_error hx
      rcases getKwarg_error ((hR c).classes it hit) hx with ⟨rfl, hs⟩ | ⟨rfl, hg⟩ |
        ⟨rfl, hg, t', h1, h2, h3⟩ | hk
      · exact ⟨_, c, .refl _, hs⟩
      · exact ⟨_, c, .refl _, Or.inl (slot_dtList ((hR c).slots it hit) hg)⟩
      · exact ⟨_, c, .refl _, it, hit, hg, id, hid, t', h1, h2, h3⟩
      · obtain ⟨k, hk, c', hr⟩ := hk
        simp only [kidsOf, List.mem_map, Xml.kids] at hk
        obtain ⟨k', hk', rfl⟩ := hk
        obtain ⟨d, c2, hd, hc2⟩ := ih k' hk' c' _ _ _ hr
        rw [mergeNs_idem] at hc2
        exact ⟨d, c2, .kid hk' hd, hc2⟩
    · rename_i kw hkw
      by_cases hb : ∃ d, Sub (.mk t a tx ks) d ∧ BadTuple F d
      · obtain ⟨d, hd, hb⟩ := hb
        have hk : ∀ k ∈ kidsOf (parse (F := F) L strict) ks, KidOk L anyPt k := by
          intro k hk
          simp only [kidsOf, List.mem_map] at hk
          obtain ⟨k', hk', rfl⟩ := hk
          exact kidOk_parse hR k' fun d _ => coordsOk_any d
        rcases construct_error hL (hR c) (kwOk_of_getKwargs hk (coordsOk_any _) (hR c).attrs hkw) h with
          ⟨rfl, _⟩ | ⟨rfl, hs⟩
        · exact ⟨d, c, hd, Or.inr hb⟩
        · exact ⟨_, c, .refl _, schema_cause (hR c) hkw hs.1 hs.2⟩
      · have hco : ∀ d, Sub (.mk t a tx ks) d → CoordsOk (F := F) dim23 d := by
          intro d hd t cs ht hcs
          rw [List.all_eq_true]
          intro p hp
          simp only [dim23, decide_eq_true_eq]
          by_cases h2 : p.length = 2
          · exact Or.inl h2
          · by_cases h3 : p.length = 3
            · exact Or.inr h3
            · exact absurd ⟨d, hd, t, cs, p, ht, hcs, hp, h2, h3⟩ hb
        have hk : ∀ k ∈ kidsOf (parse (F := F) L strict) ks, KidOk L dim23 k := by
          intro k hk
          simp only [kidsOf, List.mem_map] at hk
          obtain ⟨k', hk', rfl⟩ := hk
          exact kidOk_parse hR k' fun d hd => hco d (.kid hk' hd)
        rcases construct_error hL (hR c) (kwOk_of_getKwargs hk (hco _ (.refl _)) (hR c).attrs hkw) h with
          ⟨rfl, hT⟩ | ⟨rfl, hs⟩
        · rcases hT with hT | hT
          · exact absurd hT not_typeErr_dim23
          · exact ⟨_, c, .refl _, Or.inl hT.1⟩
        · exact ⟨_, c, .refl _, schema_cause (hR c) hkw hs.1 hs.2⟩

end Verif
