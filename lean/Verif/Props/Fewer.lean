import Verif.Props.Labels
import Verif.Props.Tracks

set_option linter.unusedSectionVars false
set_option linter.unusedSimpArgs false

/-!
# C79: saving a document that was opened adds no elements
-/

namespace Verif

open Spec

variable {F : Type} [PyExt F]

/-- What is stored for a missing argument: nothing, or something empty. -/
theorem normalise_missing {n : Norm} {w : Val Cls F} (h : normalise fastkml n .none = .ok w) :
    w = .none ∨ w = .str [] ∨ w = .list [] ∨ w = .coords [] := by
  cases n <;> simp only [normalise, truthy] at h <;> cases h <;> simp

theorem normalise_object {n : Norm} {v : Val Cls F} {c : Cls} {ns : Str} {nss : NsMap} {attrs : List (Str × Val Cls F)}
    (h : normalise fastkml n v = .ok (.obj c ns nss attrs)) : v = .obj c ns nss attrs := by
  cases n <;> cases v <;> simp only [normalise] at h <;> try (cases h; done)
  all_goals first
    | (cases h; rfl)
    | (split at h <;> first | (cases h; done) | (split at h <;> cases h; done) | skip)
  all_goals first
    | (cases h; done)
    | (simp only [Except.ok.injEq] at h; split at h <;> first | exact h | cases h)

theorem normalise_list {n : Norm} {v : Val Cls F} {l : List (Val Cls F)} (h : normalise fastkml n v = .ok (.list l)) (g : Val Cls F → Nat) :
    (v = .none ∧ l = []) ∨ ∃ l', v = .list l' ∧ (l.map g).sum ≤ (l'.map g).sum := by
  cases n with
  | raw => cases h; exact Or.inr ⟨l, rfl, Nat.le_refl _⟩
  | clean =>
    cases v <;> simp only [normalise] at h <;> try (cases h; done)
    split at h <;> cases h
  | orEmpty => cases v <;> simp only [normalise] at h <;> cases h
  | orNone =>
    simp only [normalise] at h
    split at h
    · cases h
    · simp only [Except.ok.injEq] at h
      split at h
      · exact Or.inr ⟨l, h, Nat.le_refl _⟩
      · cases h
  | listOr =>
    cases v <;> simp only [normalise] at h <;> cases h
    · exact Or.inl ⟨rfl, rfl⟩
    · exact Or.inr ⟨l, rfl, Nat.le_refl _⟩
  | listNotNone =>
    cases v <;> simp only [normalise] at h <;> cases h
    · exact Or.inl ⟨rfl, rfl⟩
    · exact Or.inr ⟨l, rfl, Nat.le_refl _⟩
  | listTruthy =>
    cases v <;> simp only [normalise] at h <;> try (cases h; done)
    · cases h; exact Or.inl ⟨rfl, rfl⟩
    · split at h
      · cases h
      · rename_i l' l'' hl
        cases h
        refine Or.inr ⟨_, rfl, ?_⟩
        rw [keepTruthy_filter hl]
        exact sum_filter_le
  | coordsOr => cases v <;> simp only [normalise] at h <;> cases h

/-- A missing scalar is not written. -/
theorem unwritten {vb : Verbosity} (hv : vb ≠ .verbose) {d w : Val Cls F} (h : w = .none ∨ w = .str [] ∨ w = .list [] ∨ w = .coords []) :
    scalarText (shown vb d w) = none := by
  have h1 : scalarText w = none := by rcases h with rfl | rfl | rfl | rfl <;> rfl
  cases vb with
  | verbose => exact absurd rfl hv
  | normal => exact h1
  | terse =>
    simp only [shown]
    split
    · rfl
    · exact h1

theorem getSub_child {α : Type} {conv : Str → Option α} {e : Xml} {tag : Str} {strict : Bool} {a : α}
    (h : getSub conv e tag strict = .ok (some a)) : ∃ k ∈ e.kids, k.tag = tag := by
  unfold getSub at h
  split at h
  · cases h
  · rename_i n hn
    exact ⟨n, List.mem_of_find?_eq_some hn, by simpa using List.find?_some hn⟩

/-- A scalar that is read has a child. -/
theorem child_exists {it : Item Cls} (hp : place it.get = .child) {strict : Bool} {N : NsMap} {e : Xml} {kids : List (Kid Cls F)}
    {ids : List Str} {v : Val Cls F} (h : tryNs fastkml it strict N e kids ids = .ok (some v)) :
    ∃ k ∈ e.kids, ∃ id, k.tag = nsGet N id ++ it.node := by
  obtain ⟨pre, id, post, -, -, h⟩ := tryNs_some.mp h
  suffices ∃ k ∈ e.kids, k.tag = nsGet N id ++ it.node by
    obtain ⟨k, hk, ht⟩ := this
    exact ⟨k, hk, id, ht⟩
  unfold getKwarg at h
  cases hg : it.get <;> rw [hg] at h hp <;> simp only [place] at hp <;> try (cases hp; done)
  all_goals simp only at h
  case subText =>
    unfold getSubText at h
    split at h
    · cases h
    · rename_i n hn
      exact ⟨n, List.mem_of_find?_eq_some hn, by simpa using List.find?_some hn⟩
  case subBool =>
    split at h
    · obtain ⟨a, ha, _⟩ := wrap_some h; exact getSub_child ha
    · cases h
  case subInt => obtain ⟨a, ha, _⟩ := wrap_some h; exact getSub_child ha
  case subFloat => obtain ⟨a, ha, _⟩ := wrap_some h; exact getSub_child ha
  case subEnum =>
    split at h
    · obtain ⟨a, ha, _⟩ := wrap_some h; exact getSub_child ha
    · cases h
  case subDt => obtain ⟨a, ha, _⟩ := wrap_some h; exact getSub_child ha

theorem share_child {f : Str → List Str → Nat} {u : Str} {names : List Str} {ks : List Xml} {k : Xml} (hk : k ∈ ks)
    (hn : localName k.tag ∈ names) : total f (labels u k) ≤ share f u names ks := by
  have := le_sum (f := fun k => if localName k.tag ∈ names then total f (labels u k) else 0) hk
  simp only [hn, if_true] at this
  exact this

theorem total_leaf (f : Str → List Str → Nat) (u t s : Str) : total f (labels u (Xml.leaf t s)) = f (localName t) [] := by
  simp [Xml.leaf, labels, labelsAll, total, idsIn, dget]

theorem label_le {f : Str → List Str → Nat} (hf : Weight f) (u : Str) (k : Xml) : f (localName k.tag) [] ≤ total f (labels u k) := by
  obtain ⟨t, as, x, ks⟩ := k
  simp only [labels, total_cons]
  exact Nat.le_trans (hf.none _ _) (Nat.le_add_right _ _)

theorem track_children (c : Cls) {it : Item Cls} (hit : it ∈ fastkml.itemsOf c) (hp : place it.get = .children) :
    c = .Track ∧ (it.attr, it.node) ∈ [(s% "whens", s% "when"), (s% "coords", s% "coord"), (s% "angles", s% "angles")] := by
  have : ∀ c ∈ Cls.all, ∀ it ∈ fastkml.itemsOf c, place it.get = .children →
    c = .Track ∧ (it.attr, it.node) ∈ [(s% "whens", s% "when"), (s% "coords", s% "coord"), (s% "angles", s% "angles")] := by decide +kernel
  exact this c (Cls.mem_all c) it hit hp

theorem gathered_share {f : Str → List Str → Nat} (hf : Weight f) {u : Str} {N : NsMap} (hN : NsOk N) {α : Type} (g : Xml → Option α) (e : Xml)
    {node : Str} (hb : '}' ∉ node) (ids : List Str) : (gathered g N e node ids).length * f node [] ≤ share f u [node] e.kids := by
  induction ids with
  | nil => simp [gathered]
  | cons id ids ih =>
    simp only [gathered]
    split
    · exact ih
    · refine Nat.le_trans (Nat.mul_le_mul_right _ (List.length_filterMap_le _ _)) ?_
      unfold Xml.findall share
      induction e.kids with
      | nil => simp
      | cons k ks ihk =>
        rw [List.filter_cons]
        simp only [List.map_cons, List.sum_cons]
        by_cases hk : k.tag = nsGet N id ++ node
        · have h1 : localName k.tag = node := by rw [hk, localOf_append (nsGet_form hN id) hb]
          have h2 := label_le hf u k
          rw [h1] at h2
          have h3 : localName k.tag ∈ [node] := by rw [h1]; exact List.mem_cons_self
          rw [if_pos h3, if_pos (by simpa using hk), List.length_cons, Nat.succ_mul]
          omega
        · simp only [hk, decide_false, Bool.false_eq_true, if_false]
          omega

/-- How much the element of a value counts. -/
def written_ (f : Str → List Str → Nat) (u : Str) (o : Opts) (v : Val Cls F) : Nat :=
  match ser fastkml o v with
  | .ok e => total f (labels u e)
  | .error _ => 0

/-- Which children of the document pay for what an item writes: the rows of a track are paid
for by its positions. -/
def charge (X : Str) (it : Item Cls) : List Str :=
  match place it.get with
  | .children => if it.node = X then [s% "coord"] else []
  | _ => localNames fastkml it

theorem charge_tags {X : Str} {it : Item Cls} (hp : place it.get = .object ∨ place it.get = .objects) : charge X it = tagsOf it.classes := by
  rw [← localNames_tags hp]
  rcases hp with hp | hp <;> simp [charge, hp]

theorem charge_nodup {X : Str} (hX : X ∈ [s% "when", s% "coord", s% "angles"]) (c : Cls) : ((fastkml.itemsOf c).flatMap (charge X)).Nodup := by
  have : ∀ X ∈ [s% "when", s% "coord", s% "angles"], ∀ c ∈ Cls.all, ((fastkml.itemsOf c).flatMap (charge X)).Nodup := by decide +kernel
  exact this X hX c (Cls.mem_all c)

theorem elem_angles (c : Cls) : (elemName c).name ≠ s% "angles" := by
  have : ∀ c ∈ Cls.all, (elemName c).name ≠ s% "angles" := by decide +kernel
  exact this c (Cls.mem_all c)

theorem node_angles (c : Cls) {it : Item Cls} (hit : it ∈ fastkml.itemsOf c) (hp : place it.get ≠ .children) : it.node ≠ s% "angles" := by
  have : ∀ c ∈ Cls.all, ∀ it ∈ fastkml.itemsOf c, place it.get ≠ .children → it.node ≠ s% "angles" := by decide +kernel
  exact this c (Cls.mem_all c) it hit hp

/-- What is saved is counted by `f`, what was opened by `g`; of the parts of the rows of tracks
only `X` counts in `f`. -/
structure Charged (f g : Str → List Str → Nat) (X : Str) : Prop where
  out : Weight f
  inn : Weight g
  le : ∀ n is, n ≠ s% "angles" → f n is ≤ g n is
  one : X ∈ [s% "when", s% "coord", s% "angles"]
  coord : f X [] ≤ g (s% "coord") []
  zero : ∀ n ∈ [s% "when", s% "coord", s% "angles"], n ≠ X → f n [] = 0

theorem charged_self {f : Str → List Str → Nat} (hf : Weight f) (hw : ∀ is, f (s% "when") is = 0) (ha : ∀ is, f (s% "angles") is = 0) :
    Charged f f (s% "coord") := by
  refine ⟨hf, hf, fun _ _ _ => Nat.le_refl _, by simp, Nat.le_refl _, ?_⟩
  intro n hn hX
  simp only [List.mem_cons, List.not_mem_nil, or_false] at hn
  rcases hn with rfl | rfl | rfl
  · exact hw _
  · exact absurd rfl hX
  · exact ha _

theorem saved_total {f g : Str → List Str → Nat} {X : Str} (hC : Charged f g X)
    {strict : Bool} {N : NsMap} (hN : NsOk N) (hM : mergeNs N = N) (h0 : nsGet N [] = []) {u : Str} (hu : u = nsGet N (s% "kml"))
    (hu0 : u ≠ []) {o : Opts} (ho : o.verbosity ≠ .verbose) :
    ∀ (e : Xml) (c : Cls) (ns : Str) (v : Val Cls F) (e' : Xml), NsForm ns → parse fastkml strict e c ns N = .ok v → ser fastkml o v = .ok e' →
      total f (labels u e') ≤ g (elemName c).name (idsIn u e.attrs) + total g (labelsAll u e.kids) := by
  have hf := hC.out
  have hg := hC.inn
  intro e
  induction e using Xml.ind with
  | h t a x ks ih =>
    intro c ns v e' hns h hs
    obtain ⟨hty, as, rfl⟩ := parse_typed fastkml_readOk h
    have W := ser_written (fastkml_writeOk c) hty hs
    obtain ⟨blocks, hb, he⟩ := W.kids
    have hk : ∀ k ∈ ks, Counted g (written_ (F := F) f u o) u N strict k := by
      intro k hk d ns' w hns ht hp
      unfold written_
      split
      · rename_i x hx
        have := ih k hk d ns' w x hns hp hx
        obtain ⟨t', a', x', ks'⟩ := k
        have ht : t' = ns' ++ (fastkml.info d).tag := ht
        simp only [labels, total_cons]
        rw [ht, localOf_append hns (class_brace d), class_tag]
        exact this
      · exact Nat.zero_le _
    have hids := written_ids hty hs (u := u) (by rw [hu]; exact nsGet_form hN _) hu0
    have hread := read_id h (by rw [hM]; exact h0)
    rw [hM, ← hu] at hread
    have htag : localName e'.tag = (elemName c).name := by rw [W.tag, localOf_append hns (class_brace c), class_tag]
    obtain ⟨t', a', x', ks'⟩ := e'
    have he : ks' = blocks.flatten := he
    have htag : localName t' = _ := htag
    have hids : idsIn u a' = [] ∨ idsIn u a' = idOf as := hids
    simp only [labels, total_cons, htag]
    refine Nat.add_le_add ?_ ?_
    · refine Nat.le_trans ?_ (hC.le _ _ (elem_angles c))
      rcases hids with h1 | h1 <;> rw [h1]
      · exact hf.none _ _
      · cases hi : idOf as with
        | nil => exact hf.none _ _
        | cons i is =>
          obtain ⟨h1, h2⟩ := hread i (by rw [hi]; exact List.mem_cons_self)
          rw [← hi, h1]
          exact hf.some _ _ i h2
    · rw [total_labelsAll, total_labelsAll, he]
      refine Nat.le_trans ?_ (shares (f := g) (u := u) (charge_nodup hC.one c) ks)
      refine all2_sum hb ?_
      intro it hit bs hbs hB
      have hio := (fastkml_writeOk c).item it hit
      have hnode := (fastkml_namesOk c).node it hit
      have hattr : place it.get ≠ .children → ∃ n r, tryNs fastkml it strict N (.mk t a x ks) (kidsOf (parse fastkml strict) ks) it.nsIds = .ok r ∧
          normalise fastkml n (r.getD .none) = .ok (attrOf it.attr as) := by
        intro hp
        obtain ⟨n, hn, -⟩ := slotOk_slot ((fastkml_readOk c).slots it hit) (by intro hg; simp [hg, place] at hp) (by intro hg; simp [hg, place] at hp)
        obtain ⟨r, hr, hv⟩ := parse_attr (fastkml_readOk c) h hit hn
        rw [hM] at hr
        exact ⟨n, r, hr, hv⟩
      unfold Block at hB
      split at hB
      · subst hB; exact Nat.zero_le _
      · subst hB; exact Nat.zero_le _
      · rename_i hp
        subst hB
        rw [value_stored hio (by simp [hp])]
        obtain ⟨n, r, hr, hv⟩ := hattr (by simp [hp])
        unfold scalarKid
        split
        · exact Nat.zero_le _
        · rename_i s hsc
          cases r with
          | none =>
            rw [unwritten ho (normalise_missing hv)] at hsc
            cases hsc
          | some y =>
            obtain ⟨k, hk', id, ht⟩ := child_exists hp hr
            have hl : localName k.tag = it.node := by rw [ht, localOf_append (nsGet_form hN id) hnode]
            have h1 : localName k.tag ∈ charge X it := by rw [hl]; simp [charge, localNames, hp]
            have h2 := label_le hg u k
            have hch : NsForm (childNs ns (mergeNs N) (shown o.verbosity it.dflt.val (attrOf it.attr as))) := by
              rw [hM]
              unfold childNs
              split
              · split <;> exact nsGet_form hN _
              · exact nsGet_form hN _
              · exact hns
            simp only [List.map_cons, List.map_nil, List.sum_cons, List.sum_nil, Nat.add_zero, total_leaf, localOf_append hch hnode]
            rw [hl] at h2
            exact Nat.le_trans (hC.le _ _ (node_angles c hit (by simp [hp]))) (Nat.le_trans h2 (share_child hk' h1))
      · rename_i hp
        subst hB
        obtain ⟨rfl, hm⟩ := track_children c hit hp
        have hl : ∀ w : Val Cls F, ∀ k ∈ listKids o.precision ns (mergeNs N) it.node w, total f (labels u k) = f it.node [] := by
          intro w k hk
          unfold listKids at hk
          rw [hM] at hk
          split at hk
          · obtain ⟨w, _, rfl⟩ := List.mem_map.mp hk
            cases w
            · rw [total_leaf, localOf_append hns hnode]
            · rw [total_leaf, localOf_append (nsGet_form hN _) hnode]
          · obtain ⟨w, _, rfl⟩ := List.mem_map.mp hk
            rw [total_leaf, localOf_append hns hnode]
          · cases hk
        have hsum : ∀ w : Val Cls F, ((listKids o.precision ns (mergeNs N) it.node w).map fun k => total f (labels u k)).sum =
            (listKids o.precision ns (mergeNs N) it.node w).length * f it.node [] := by
          intro w
          have := hl w
          generalize listKids o.precision ns (mergeNs N) it.node w = kl at this
          induction kl with
          | nil => simp
          | cons k l ihl =>
            simp only [List.map_cons, List.sum_cons, List.length_cons, Nat.succ_mul]
            rw [this k List.mem_cons_self, ihl fun y hy => this y (List.mem_cons_of_mem _ hy)]
            omega
        rw [hsum]
        by_cases hX : it.node = X
        · have h1 := gathered_share (f := g) hg (u := u) hN (numbersIn (F := F)) (.mk t a x ks) (node := s% "coord") (by decide) [s% "gx", []]
          have hln : charge X it = [s% "coord"] := by simp [charge, hp, hX]
          rw [hln, hX]
          refine Nat.le_trans (Nat.mul_le_mul ?_ hC.coord) h1
          have h2 := C33_rows h
          rw [hM] at h2
          have h3 : (rows as).length ≤ (positionsOf (F := F) N (.mk t a x ks)).length := by
            split at h2
            · rw [h2]; exact Nat.zero_le _
            · exact Nat.le_of_eq h2.1.1
          refine Nat.le_trans ?_ h3
          simp only [List.mem_cons, Prod.mk.injEq, List.not_mem_nil, or_false] at hm
          rcases hm with ⟨hat, _⟩ | ⟨hat, _⟩ | ⟨hat, _⟩
          · rw [hat]
            have : (fastkml.info .Track).special = .track := rfl
            simp [value, this, listKids]
          · rw [hat]
            have : (fastkml.info .Track).special = .track := rfl
            have hv : value fastkml .Track as (s% "coords") = .coords (((rows as).map (·.coord)).filter fun p => !ptEmpty p) := by
              simp [value, this]
            rw [hv]
            simp only [listKids, List.length_map]
            exact Nat.le_trans (List.length_filter_le _ _) (by simp)
          · rw [hat]
            have : (fastkml.info .Track).special = .track := rfl
            have hv : value fastkml .Track as (s% "angles") = .coords (((rows as).filterMap (·.angle)).map fun a => [a.1, a.2.1, a.2.2]) := by
              simp [value, this]
            rw [hv]
            simp only [listKids, List.length_map]
            exact List.length_filterMap_le _ _
        · rw [hC.zero it.node ?_ hX]
          · exact Nat.zero_le _
          · simp only [List.mem_cons, Prod.mk.injEq, List.not_mem_nil, or_false] at hm ⊢
            rcases hm with ⟨_, hn⟩ | ⟨_, hn⟩ | ⟨_, hn⟩ <;> simp [hn]
      · rename_i hp
        rcases hB with ⟨_, rfl⟩ | ⟨y, htr, hy, rfl⟩
        · exact Nat.zero_le _
        · rw [value_stored hio (by simp [hp])] at hy
          obtain ⟨n, r, hr, hv⟩ := hattr (by simp [hp])
          obtain ⟨c', n', s', a', ho'⟩ := ser_isObj hy
          rw [ho'] at hv hy
          have hr' := normalise_object hv
          cases r with
          | none => cases hr'
          | some w =>
            obtain ⟨pre, id, post, -, -, hg⟩ := tryNs_some.mp hr
            have hget : it.get = .xmlSub := by
              cases hg' : it.get <;> rw [hg'] at hp <;> first | rfl | cases hp
            simp only [getKwarg, hget] at hg
            obtain ⟨k, hk', d, hd, ht, hrd⟩ := getXmlSub_some hg
            simp only [kidsOf, List.mem_map] at hk'
            obtain ⟨z, hz, rfl⟩ := hk'
            have ht : z.tag = nsGet N id ++ (fastkml.info d).tag := ht
            have h1 := hk z hz d _ w (nsGet_form hN id) ht hrd
            have hr' : w = .obj c' n' s' a' := hr'
            rw [hr'] at h1
            unfold written_ at h1
            rw [hy] at h1
            simp only [List.map_cons, List.map_nil, List.sum_cons, List.sum_nil, Nat.add_zero]
            refine Nat.le_trans h1 (share_child hz ?_)
            rw [ht, localOf_append (nsGet_form hN id) (class_brace d), charge_tags (Or.inl hp)]
            exact List.mem_filterMap.mpr ⟨_, hd, rfl⟩
      · rename_i hp
        obtain ⟨l, hl, _, hall⟩ := hB
        rw [value_stored hio (by simp [hp])] at hl
        obtain ⟨n, r, hr, hv⟩ := hattr (by simp [hp])
        rw [hl] at hv
        have h1 : (bs.map fun k => total f (labels u k)).sum ≤ (l.map (written_ f u o)).sum := by
          refine Nat.le_trans (all2_sum_one hall (b := written_ f u o) ?_) sum_filter_le
          intro w _ k _ hs
          unfold written_
          rw [hs]
          exact Nat.le_refl _
        refine Nat.le_trans h1 ?_
        rcases normalise_list hv (written_ f u o) with ⟨_, rfl⟩ | ⟨l', hl', hle⟩
        · exact Nat.zero_le _
        · refine Nat.le_trans hle ?_
          cases r with
          | none => cases hl'
          | some w =>
            have hl' : w = .list l' := hl'
            subst hl'
            obtain ⟨pre, id, post, -, -, hg⟩ := tryNs_some.mp hr
            have hget : it.get = .xmlSubList := by
              cases hg' : it.get <;> rw [hg'] at hp <;> first | rfl | cases hp
            simp only [getKwarg, hget] at hg
            split at hg
            · cases hg
            · rename_i vs hvs
              cases hg
              rw [charge_tags (Or.inr hp)]
              refine list_total (nsGet_form hN id) hk ?_ hvs
              have h1 := (fastkml_namesOk c).nodup
              obtain ⟨l1, l2, hl⟩ := List.append_of_mem hit
              rw [hl, List.flatMap_append, List.flatMap_cons, List.nodup_append] at h1
              have h2 := h1.2.1
              rw [List.nodup_append, localNames_tags (Or.inr hp)] at h2
              exact h2.1

theorem resaved_total {f g : Str → List Str → Nat} {X : Str} (hC : Charged f g X)
    {strict : Bool} {c : Cls} {ns : Option Str} (hns : ∀ n, ns = some n → NsForm n) {nss : NsMap} (hN : NsOk nss)
    (h0 : nsGet (mergeNs nss) [] = []) {e : Xml} {v : Val Cls F} (h : fromElement fastkml strict c ns nss e = .ok v)
    (hr : localName e.tag = (elemName c).name) {u : Str} (hu : u = nsGet (mergeNs nss) (s% "kml")) (hu0 : u ≠ []) {o : Opts}
    (ho : o.verbosity ≠ .verbose) {e' : Xml} (hs : ser fastkml o v = .ok e') : total f (labels u e') ≤ total g (labels u e) := by
  have hn : NsForm (ns.getD (nsGet (mergeNs nss) (fastkml.info c).nsid)) := by
    cases ns with
    | none => exact nsGet_form (nsOk_merge hN) _
    | some n => exact hns n rfl
  have := saved_total hC (nsOk_merge hN) (mergeNs_idem nss) h0 hu hu0 ho e c _ v e' hn h hs
  obtain ⟨t, as, x, ks⟩ := e
  have hr : localName t = _ := hr
  simp only [labels, total_cons]
  rw [hr]
  exact this

/-- **C79.** A document that is opened and saved, not verbosely, has at most as many elements
of every name as before, except for the times and angles of tracks. -/
theorem C79_names {strict : Bool} {c : Cls} {ns : Option Str} (hns : ∀ n, ns = some n → NsForm n) {nss : NsMap} (hN : NsOk nss)
    (h0 : nsGet (mergeNs nss) [] = []) {e : Xml} {v : Val Cls F} (h : fromElement fastkml strict c ns nss e = .ok v)
    (hr : localName e.tag = (elemName c).name) {u : Str} (hu : u = nsGet (mergeNs nss) (s% "kml")) (hu0 : u ≠ []) {o : Opts}
    (ho : o.verbosity ≠ .verbose) {e' : Xml} (hs : ser fastkml o v = .ok e') {n : Str} (hw : n ≠ s% "when") (ha : n ≠ s% "angles") :
    ((labels u e').map Prod.fst).count n ≤ ((labels u e).map Prod.fst).count n := by
  rw [← total_names, ← total_names]
  refine resaved_total (charged_self (weight_names n) ?_ ?_) hns hN h0 h hr hu hu0 ho hs
  · intro _; rw [List.count_cons_of_ne (Ne.symm hw)]; rfl
  · intro _; rw [List.count_cons_of_ne (Ne.symm ha)]; rfl

/-- **C79.** The same for the elements with a name and an identifier. -/
theorem C79_identified {strict : Bool} {c : Cls} {ns : Option Str} (hns : ∀ n, ns = some n → NsForm n) {nss : NsMap} (hN : NsOk nss)
    (h0 : nsGet (mergeNs nss) [] = []) {e : Xml} {v : Val Cls F} (h : fromElement fastkml strict c ns nss e = .ok v)
    (hr : localName e.tag = (elemName c).name) {u : Str} (hu : u = nsGet (mergeNs nss) (s% "kml")) (hu0 : u ≠ []) {o : Opts}
    (ho : o.verbosity ≠ .verbose) {e' : Xml} (hs : ser fastkml o v = .ok e') {n : Str} (hw : n ≠ s% "when") (ha : n ≠ s% "angles") (i : Str) :
    ((labels u e').filter fun p => decide (p.1 = n ∧ i ∈ p.2)).length ≤ ((labels u e).filter fun p => decide (p.1 = n ∧ i ∈ p.2)).length := by
  rw [← total_pairs, ← total_pairs]
  refine resaved_total (charged_self (weight_pairs n i) ?_ ?_) hns hN h0 h hr hu hu0 ho hs
  · intro _; rw [if_neg fun h => hw h.1.symm]
  · intro _; rw [if_neg fun h => ha h.1.symm]

theorem total_others (l : List (Str × List Str)) (ns : List Str) :
    total (fun m _ => if m ∈ ns then 0 else 1) l = (l.filter fun p => decide (p.1 ∉ ns)).length := by
  induction l with
  | nil => rfl
  | cons p l ih =>
    rw [total_cons, ih, List.filter_cons]
    by_cases h : p.1 ∈ ns <;> simp [h] <;> omega

/-- **C79.** In all there are at most as many elements as before, apart from these. -/
theorem C79_size {strict : Bool} {c : Cls} {ns : Option Str} (hns : ∀ n, ns = some n → NsForm n) {nss : NsMap} (hN : NsOk nss)
    (h0 : nsGet (mergeNs nss) [] = []) {e : Xml} {v : Val Cls F} (h : fromElement fastkml strict c ns nss e = .ok v)
    (hr : localName e.tag = (elemName c).name) {u : Str} (hu : u = nsGet (mergeNs nss) (s% "kml")) (hu0 : u ≠ []) {o : Opts}
    (ho : o.verbosity ≠ .verbose) {e' : Xml} (hs : ser fastkml o v = .ok e') :
    ((labels u e').filter fun p => decide (p.1 ∉ [s% "when", s% "angles"])).length ≤
      ((labels u e).filter fun p => decide (p.1 ∉ [s% "when", s% "angles"])).length := by
  rw [← total_others, ← total_others]
  exact resaved_total (charged_self ⟨fun _ _ => Nat.le_refl _, fun _ _ _ _ => Nat.le_refl _⟩ (fun _ => by simp) (fun _ => by simp)) hns hN h0 h hr hu hu0 ho hs

theorem total_add (f g : Str → List Str → Nat) (l : List (Str × List Str)) : total (fun n is => f n is + g n is) l = total f l + total g l := by
  induction l with
  | nil => rfl
  | cons p l ih => simp only [total_cons, ih]; omega

/-- **C79.** The times that are added are at most as many as the positions of tracks; … -/
theorem C79_when {strict : Bool} {c : Cls} {ns : Option Str} (hns : ∀ n, ns = some n → NsForm n) {nss : NsMap} (hN : NsOk nss)
    (h0 : nsGet (mergeNs nss) [] = []) {e : Xml} {v : Val Cls F} (h : fromElement fastkml strict c ns nss e = .ok v)
    (hr : localName e.tag = (elemName c).name) {u : Str} (hu : u = nsGet (mergeNs nss) (s% "kml")) (hu0 : u ≠ []) {o : Opts}
    (ho : o.verbosity ≠ .verbose) {e' : Xml} (hs : ser fastkml o v = .ok e') :
    ((labels u e').map Prod.fst).count (s% "when") ≤ ((labels u e).map Prod.fst).count (s% "when") + ((labels u e).map Prod.fst).count (s% "coord") := by
  rw [← total_names, ← total_names, ← total_names, ← total_add]
  refine resaved_total (X := s% "when") ⟨weight_names _, ⟨fun _ _ => Nat.le_refl _, fun _ _ _ _ => Nat.le_refl _⟩, fun _ _ _ => Nat.le_add_right _ _,
    by simp, by decide +kernel, by decide +kernel⟩ hns hN h0 h hr hu hu0 ho hs

/-- … the angles are at most as many as the positions, … -/
theorem C79_angle {strict : Bool} {c : Cls} {ns : Option Str} (hns : ∀ n, ns = some n → NsForm n) {nss : NsMap} (hN : NsOk nss)
    (h0 : nsGet (mergeNs nss) [] = []) {e : Xml} {v : Val Cls F} (h : fromElement fastkml strict c ns nss e = .ok v)
    (hr : localName e.tag = (elemName c).name) {u : Str} (hu : u = nsGet (mergeNs nss) (s% "kml")) (hu0 : u ≠ []) {o : Opts}
    (ho : o.verbosity ≠ .verbose) {e' : Xml} (hs : ser fastkml o v = .ok e') :
    ((labels u e').map Prod.fst).count (s% "angles") ≤ ((labels u e).map Prod.fst).count (s% "coord") := by
  rw [← total_names, ← total_names]
  refine resaved_total (X := s% "angles") ⟨weight_names _, weight_names _, ?_, by simp, by decide +kernel, by decide +kernel⟩ hns hN h0 h hr hu hu0 ho hs
  intro n is hn
  have : [n].count (s% "angles") = 0 := by rw [List.count_cons_of_ne hn]; rfl
  rw [this]
  exact Nat.zero_le _

/-- … and in all the document grows by at most two elements for every position. -/
theorem C79_total {strict : Bool} {c : Cls} {ns : Option Str} (hns : ∀ n, ns = some n → NsForm n) {nss : NsMap} (hN : NsOk nss)
    (h0 : nsGet (mergeNs nss) [] = []) {e : Xml} {v : Val Cls F} (h : fromElement fastkml strict c ns nss e = .ok v)
    (hr : localName e.tag = (elemName c).name) {u : Str} (hu : u = nsGet (mergeNs nss) (s% "kml")) (hu0 : u ≠ []) {o : Opts}
    (ho : o.verbosity ≠ .verbose) {e' : Xml} (hs : ser fastkml o v = .ok e') :
    (labels u e').length ≤ (labels u e).length + 2 * ((labels u e).map Prod.fst).count (s% "coord") := by
  have h1 := C79_size hns hN h0 h hr hu hu0 ho hs
  have h2 := C79_when hns hN h0 h hr hu hu0 ho hs
  have h3 := C79_angle hns hN h0 h hr hu hu0 ho hs
  have key : ∀ l : List (Str × List Str), l.length = (l.filter fun p => decide (p.1 ∉ [s% "when", s% "angles"])).length +
      (l.map Prod.fst).count (s% "when") + (l.map Prod.fst).count (s% "angles") := by
    intro l
    induction l with
    | nil => rfl
    | cons p l ih =>
      simp only [List.map_cons, List.count_cons, List.length_cons, List.filter_cons]
      by_cases hw : p.1 = s% "when"
      · simp [hw]; simp at ih; omega
      · by_cases ha : p.1 = s% "angles"
        · simp [ha]; simp at ih; omega
        · simp [hw, ha]; simp at ih; omega
  rw [key (labels u e'), key (labels u e)]
  omega

/-! ## Cases -/

/-- The names of the elements of a document that was opened and saved. -/
def resavedNames (c : Cls) (o : Opts) (e : Xml) : Option (List Str) :=
  match fromElement (F := Fix) fastkml true c none [] e with
  | .ok v => match ser fastkml o v with
    | .ok e' => some ((labels kmlNs e').map Prod.fst)
    | .error _ => none
  | .error _ => none

/-- The document of C78. -/
example : (labels kmlNs labelledDoc).map Prod.fst = [s% "kml", s% "Document", s% "Style", s% "LineStyle", s% "Schema", s% "Unknown",
      s% "Placemark", s% "LineString", s% "coordinates", s% "Point", s% "coordinates"] ∧
    resavedNames .KML ⟨none, .normal⟩ labelledDoc = some [s% "kml", s% "Document", s% "Placemark", s% "Point", s% "coordinates", s% "Schema"] :=
  ⟨by decide +kernel, by decide +kernel⟩

/-- **C79, finding.** Saving adds angles to a track that has none. -/
theorem C79_angles : (labels kmlNs (trackDoc [s% "2020-01-01"] [s% "1 1"])).map Prod.fst = [s% "Track", s% "when", s% "coord"] ∧
    resavedNames .Track ⟨none, .normal⟩ (trackDoc [s% "2020-01-01"] [s% "1 1"]) = some [s% "Track", s% "when", s% "coord", s% "angles"] :=
  ⟨by decide +kernel, by decide +kernel⟩

/-- **C79, finding.** Saving adds times to a track with fewer times than positions. -/
theorem C79_times : (labels kmlNs (trackDoc [s% "2020-01-01"] [s% "1 1", s% "2 2"])).map Prod.fst = [s% "Track", s% "when", s% "coord", s% "coord"] ∧
    resavedNames .Track ⟨none, .normal⟩ (trackDoc [s% "2020-01-01"] [s% "1 1", s% "2 2"]) =
      some [s% "Track", s% "when", s% "when", s% "coord", s% "coord", s% "angles", s% "angles"] :=
  ⟨by decide +kernel, by decide +kernel⟩

/-- Verbose output adds defaults. -/
example : resavedNames .Link ⟨none, .normal⟩ (kNode (s% "Link") [] [kLeaf (s% "href") (s% "a.kml")]) = some [s% "Link", s% "href"] ∧
    ((resavedNames .Link ⟨none, .verbose⟩ (kNode (s% "Link") [] [kLeaf (s% "href") (s% "a.kml")])).map fun l => decide (2 < l.length)) = some true :=
  ⟨by decide +kernel, by decide +kernel⟩

end Verif
