import Verif.Lemmas.Fastkml
import Verif.Spec.Cycle

/-!
# Where the objects in a read object come from
-/

set_option linter.unusedSectionVars false
set_option linter.unusedSimpArgs false

namespace Verif

open Spec

variable {C F : Type} [DecidableEq C] [PyExt F]

theorem inside_scalar {c : C} {ns : Str} {nss : NsMap} {as : List (Str × Val C F)} {v : Val C F}
    (h : Inside (.obj c ns nss as) v) : (∃ c ns nss as, v = .obj c ns nss as) ∨ ∃ l, v = .list l := by
  cases h with
  | self => exact Or.inl ⟨_, _, _, _, rfl⟩
  | attr _ _ => exact Or.inl ⟨_, _, _, _, rfl⟩
  | member _ _ => exact Or.inr ⟨_, rfl⟩

/-- Storing an argument adds no objects. -/
theorem normalise_inside {L : Lib C} {n : Norm} {v w : Val C F} (h : normalise L n v = .ok w)
    {c : C} {ns : Str} {nss : NsMap} {as : List (Str × Val C F)}
    (hi : Inside (.obj c ns nss as) w) : Inside (.obj c ns nss as) v := by
  have hno : ∀ {x : Val C F}, (∀ c ns nss as, x ≠ .obj c ns nss as) → (∀ l, x ≠ .list l) → w = x → False := by
    intro x h1 h2 he
    subst he
    rcases inside_scalar hi with ⟨_, _, _, _, h⟩ | ⟨_, h⟩
    · exact h1 _ _ _ _ h
    · exact h2 _ h
  have hnil : ∀ {l : List (Val C F)}, w = .list l → ∃ x ∈ l, Inside (.obj c ns nss as) x := by
    intro l he
    subst he
    cases hi with
    | member hm hx => exact ⟨_, hm, hx⟩
  cases n with
  | raw => cases h; exact hi
  | clean =>
    cases v <;> simp only [normalise] at h <;> try (cases h)
    · exact (hno (by simp) (by simp) rfl).elim
    · exfalso
      split at hi
      · exact hno (x := .none) (by simp) (by simp) (by split <;> simp_all)
      · rename_i t ht
        rcases inside_scalar hi with ⟨_, _, _, _, h⟩ | ⟨_, h⟩ <;> cases h
  | orEmpty =>
    cases v <;> simp only [normalise] at h <;> try (cases h)
    · exact (hno (by simp) (by simp) rfl).elim
    · exact (hno (by simp) (by simp) rfl).elim
  | orNone =>
    simp only [normalise] at h
    split at h
    · cases h
    · rename_i b _
      cases b
      · simp only [Bool.false_eq_true, if_false, Except.ok.injEq] at h
        exact (hno (x := .none) (by simp) (by simp) h.symm).elim
      · simp only [if_true, Except.ok.injEq] at h
        subst h
        exact hi
  | listOr =>
    cases v <;> simp only [normalise] at h <;> try (cases h)
    · obtain ⟨x, hx, _⟩ := hnil rfl; cases hx
    · exact hi
  | listNotNone =>
    cases v <;> simp only [normalise] at h <;> try (cases h)
    · obtain ⟨x, hx, _⟩ := hnil rfl; cases hx
    · exact hi
  | listTruthy =>
    cases v <;> simp only [normalise] at h <;> try (cases h)
    · obtain ⟨x, hx, _⟩ := hnil rfl; cases hx
    · split at h
      · cases h
      · rename_i l' hl'
        simp only [Except.ok.injEq] at h
        obtain ⟨x, hx, hxi⟩ := hnil h.symm
        exact .member (keepTruthy_mem hl' _ hx) hxi
  | coordsOr =>
    cases v <;> simp only [normalise] at h <;> try (cases h)
    · exact (hno (by simp) (by simp) rfl).elim
    · exact (hno (by simp) (by simp) rfl).elim

/-- The objects in an argument are the readings of children. -/
theorem getKwarg_inside {L : Lib C} {it : Item C} {strict : Bool} {ns : Str} {nss : NsMap} {e : Xml}
    {kids : List (Kid C F)} {v : Val C F} (h : getKwarg L it strict ns nss e kids = .ok (some v))
    {c : C} {ns' : Str} {nss' : NsMap} {as : List (Str × Val C F)}
    (hi : Inside (.obj c ns' nss' as) v) :
    ∃ k ∈ kids, ∃ d w, k.tag = ns ++ (L.info d).tag ∧ .cls d ∈ it.classes ∧
      (it.get = .xmlSub ∨ it.get = .xmlSubList) ∧
      k.read d ns nss = .ok w ∧ Inside (.obj c ns' nss' as) w := by
  have hno : ∀ {α : Type} {f : α → Val C F} {r : Except Err (Option α)},
      (∀ a, (∀ c ns nss as, f a ≠ .obj c ns nss as) ∧ ∀ l, f a ≠ .list l) → wrap f r = .ok (some v) → False := by
    intro α f r hf hw
    obtain ⟨a, _, rfl⟩ := wrap_some hw
    rcases inside_scalar hi with ⟨_, _, _, _, h⟩ | ⟨_, h⟩
    · exact (hf a).1 _ _ _ _ h
    · exact (hf a).2 _ h
  have hmap : ∀ {o : Option Str}, (Except.ok (o.map Val.str) : Except Err (Option (Val C F))) = .ok (some v) → False := by
    intro o ho
    cases o with
    | none => cases ho
    | some s =>
      cases ho
      rcases inside_scalar hi with ⟨_, _, _, _, h⟩ | ⟨_, h⟩ <;> cases h
  unfold getKwarg at h
  cases hg : it.get <;> rw [hg] at h <;> simp only at h
  case nodeText => exact (hmap h).elim
  case subText => exact (hmap h).elim
  case attrText => exact (hmap h).elim
  case subBool =>
    split at h
    · exact (hno (by simp) h).elim
    · cases h
  case subInt => exact (hno (by simp) h).elim
  case attrInt => exact (hno (by simp) h).elim
  case subFloat => exact (hno (by simp) h).elim
  case attrFloat => exact (hno (by simp) h).elim
  case subEnum =>
    split at h
    · exact (hno (by simp) h).elim
    · cases h
  case attrEnum =>
    split at h
    · exact (hno (by simp) h).elim
    · cases h
  case subDt => exact (hno (by simp) h).elim
  case subDtList => exact (hno (by simp) h).elim
  case coordsList => exact (hno (by simp) h).elim
  case coordinates => exact (hno (by simp) h).elim
  case xmlSub =>
    obtain ⟨k, hk, d, hd, ht, hr⟩ := getXmlSub_some h
    exact ⟨k, hk, d, v, ht, hd, Or.inl rfl, hr, hi⟩
  case xmlSubList =>
    split at h
    · cases h
    · rename_i vs hvs
      cases h
      cases hi with
      | member hm hx =>
        obtain ⟨k, hk, d, hd, ht, hr⟩ := getXmlSubList_mem hvs _ hm
        exact ⟨k, hk, d, _, ht, hd, Or.inr rfl, hr, hx⟩

theorem tryNs_inside {L : Lib C} {it : Item C} {strict : Bool} {nss : NsMap} {e : Xml}
    {kids : List (Kid C F)} {v : Val C F} {ids : List Str}
    (h : tryNs L it strict nss e kids ids = .ok (some v))
    {c : C} {ns' : Str} {nss' : NsMap} {as : List (Str × Val C F)}
    (hi : Inside (.obj c ns' nss' as) v) :
    ∃ id ∈ ids, ∃ k ∈ kids, ∃ d w, k.tag = nsGet nss id ++ (L.info d).tag ∧ .cls d ∈ it.classes ∧
      (it.get = .xmlSub ∨ it.get = .xmlSubList) ∧
      k.read d (nsGet nss id) nss = .ok w ∧ Inside (.obj c ns' nss' as) w := by
  induction ids with
  | nil => cases h
  | cons id ids ih =>
    simp only [tryNs] at h
    split at h
    · cases h
    · rename_i w hw
      cases h
      obtain ⟨k, hk, h⟩ := getKwarg_inside hw hi
      exact ⟨id, by simp, k, hk, h⟩
    · obtain ⟨id', hid', h⟩ := ih h
      exact ⟨id', by simp [hid'], h⟩

/-- The objects in the attributes of a constructed object are in its arguments. -/
theorem construct_inside {L : Lib C} {c : C} {ns : Str} {nss : NsMap} {kw : List (Str × Val C F)}
    {attrs : List (Str × Val C F)} {nss0 : NsMap}
    (h : construct L c ns nss kw = .ok (.obj c ns nss0 attrs)) {a : Str} {v : Val C F}
    (ha : (a, v) ∈ attrs) {c' : C} {ns' : Str} {nss' : NsMap} {as : List (Str × Val C F)}
    (hi : Inside (.obj c' ns' nss' as) v) :
    ∃ b w, (b, w) ∈ kw ∧ Inside (.obj c' ns' nss' as) w := by
  simp only [construct] at h
  split at h
  · cases h
  · split at h
    · cases h
    · rename_i sp hsp
      split at h
      · cases h
      · rename_i sl hsl
        simp only [Except.ok.injEq, Val.obj.injEq, true_and] at h
        obtain ⟨_, rfl⟩ := h
        rcases List.mem_append.mp ha with ha | ha
        · rcases List.mem_append.mp ha with ha | ha
          · exact ⟨a, v, (List.mem_filter.mp ha).1, hi⟩
          · exfalso
            have : ∃ l : List (TrackItem F), v = .items l := by
              unfold specialInit at hsp
              split at hsp
              · split at hsp
                · cases hsp
                · split at hsp
                  · cases hsp
                  · cases hsp; cases ha
                · cases hsp
              · split at hsp
                · cases hsp
                · rename_i l _
                  cases hsp
                  simp only [List.mem_singleton, Prod.mk.injEq] at ha
                  exact ⟨l, ha.2⟩
              · split at hsp
                · cases hsp
                · cases hsp; cases ha
              · cases hsp; cases ha
              · cases hsp; cases ha
            obtain ⟨l, rfl⟩ := this
            rcases inside_scalar hi with ⟨_, _, _, _, h⟩ | ⟨_, h⟩ <;> cases h
        · obtain ⟨n, hn, he⟩ := fillSlots_mem hsl ha
          have := normalise_inside he hi
          unfold kwGet at this
          cases hd : dget a kw with
          | none =>
            rw [hd] at this
            rcases inside_scalar this with ⟨_, _, _, _, h⟩ | ⟨_, h⟩ <;> cases h
          | some w =>
            rw [hd] at this
            exact ⟨a, w, dget_mem hd, this⟩

theorem mem_dset {α β : Type} [DecidableEq α] {k : α} {v : β} {d : List (α × β)} {p : α × β}
    (h : p ∈ dset k v d) : p = (k, v) ∨ p ∈ d := by
  induction d with
  | nil => simpa [dset] using h
  | cons q r ih =>
    obtain ⟨k', v'⟩ := q
    simp only [dset] at h
    split at h
    · rename_i hk
      rcases List.mem_cons.mp h with h | h
      · exact Or.inl (by rw [h, hk])
      · exact Or.inr (List.mem_cons_of_mem _ h)
    · rcases List.mem_cons.mp h with h | h
      · exact Or.inr (by rw [h]; simp)
      · rcases ih h with h | h
        · exact Or.inl h
        · exact Or.inr (List.mem_cons_of_mem _ h)

theorem getKwargs_mem {L : Lib C} {strict : Bool} {nss : NsMap} {e : Xml} {kids : List (Kid C F)}
    {items : List (Item C)} {kw0 kw : List (Str × Val C F)}
    (h : getKwargs L strict nss e kids items kw0 = .ok kw) {a : Str} {v : Val C F} (ha : (a, v) ∈ kw) :
    (a, v) ∈ kw0 ∨ ∃ it ∈ items, it.attr = a ∧ tryNs L it strict nss e kids it.nsIds = .ok (some v) := by
  induction items generalizing kw0 with
  | nil => cases h; exact Or.inl ha
  | cons it its ih =>
    simp only [getKwargs] at h
    split at h
    · cases h
    · rcases ih h with h | ⟨it', hit', h⟩
      · exact Or.inl h
      · exact Or.inr ⟨it', by simp [hit'], h⟩
    · rename_i w hw
      rcases ih h with h | ⟨it', hit', h⟩
      · rcases mem_dset h with h | h
        · cases h
          exact Or.inr ⟨it, by simp, rfl, hw⟩
        · exact Or.inl h
      · exact Or.inr ⟨it', by simp [hit'], h⟩

theorem construct_shape {L : Lib C} {c : C} {ns : Str} {nss : NsMap} {kw : List (Str × Val C F)}
    {v : Val C F} (h : construct L c ns nss kw = .ok v) : ∃ as, v = .obj c ns (mergeNs nss) as := by
  simp only [construct] at h
  split at h
  · cases h
  · split at h
    · cases h
    · split at h
      · cases h
      · cases h; exact ⟨_, rfl⟩

/-- Every object in the result of reading is the result of reading a descendant element
that has its tag in the namespace of the object, with the namespace mapping of the
reader; only the namespace of the outermost object is that of the call. -/
theorem parse_inside {L : Lib C} {strict : Bool} (e : Xml) : ∀ {c : C} {ns : Str} {nss : NsMap}
    {v : Val C F}, parse L strict e c ns nss = .ok v →
    ∀ {c' ns' nss' as}, Inside (.obj c' ns' nss' as) v →
      .obj c' ns' nss' as = v ∨
      ∃ k ∈ e.kids, ∃ d, Sub k d ∧ d.tag = ns' ++ (L.info c').tag ∧
        (∃ c0, ∃ it ∈ L.itemsOf c0, .cls c' ∈ it.classes ∧ (it.get = .xmlSub ∨ it.get = .xmlSubList) ∧
          ∃ id ∈ it.nsIds, ns' = nsGet (mergeNs nss) id) ∧
        parse L strict d c' ns' (mergeNs nss) = .ok (.obj c' ns' nss' as) := by
  induction e using Xml.ind with
  | h t a x ks ih =>
    intro c ns nss v h c' ns' nss' as hi
    rw [parse_eq] at h
    simp only [parseStep] at h
    split at h
    · cases h
    · rename_i kw hkw
      obtain ⟨attrs, rfl⟩ := construct_shape h
      cases hi with
      | self => exact Or.inl rfl
      | attr ha hv =>
        right
        obtain ⟨b, w, hb, hw⟩ := construct_inside h ha hv
        rcases getKwargs_mem hkw hb with hb | ⟨it, hit, _, hb⟩
        · cases hb
        · obtain ⟨id, hid, k, hk, d, u, ht, hd, hg, hr, hu⟩ := tryNs_inside hb hw
          simp only [kidsOf, List.mem_map] at hk
          obtain ⟨k', hk', rfl⟩ := hk
          refine ⟨k', hk', ?_⟩
          rcases ih k' hk' hr hu with he | ⟨k2, hk2, d2, hd2, h2⟩
          · have hpr := hr
            rw [← he] at hpr
            obtain ⟨t', a', x', ks'⟩ := k'
            have hs : ∃ as', u = .obj d (nsGet (mergeNs nss) id) (mergeNs (mergeNs nss)) as' := by
              have hr' : parse L strict (.mk t' a' x' ks') d (nsGet (mergeNs nss) id) (mergeNs nss) = .ok u := hr
              rw [parse_eq] at hr'
              simp only [parseStep] at hr'
              split at hr'
              · cases hr'
              · have := construct_shape hr'
                rw [mergeNs_idem, mergeNs_idem] at this
                rw [mergeNs_idem]
                exact this
            obtain ⟨as', hs⟩ := hs
            rw [hs] at he
            cases he
            exact ⟨_, .refl _, ht, ⟨c, it, hit, hd, hg, id, hid, rfl⟩, hpr⟩
          · rw [mergeNs_idem] at h2
            exact ⟨d2, .kid hk2 hd2, h2⟩

end Verif
