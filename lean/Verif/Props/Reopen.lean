import Verif.Lemmas.Settled
import Verif.Props.Cycle
import Verif.Props.Eq
import Verif.Props.Tracks
import Verif.Props.Times
import Verif.Props.Defaults
import Verif.Props.Namespaces

/-!
# Opening, saving and opening again (C60)
-/

set_option linter.unusedSectionVars false
set_option linter.unusedSimpArgs false

namespace Verif
open Spec

/-! ## What is read is settled -/

section
variable {F : Type} [PyExt F]

theorem orEmpty_ident {c : Cls} {it : Item Cls} (hit : it ∈ fastkml.itemsOf c) (hs : scalar it.get = true) {n : Norm}
    (hn : (it.attr, n) ∈ (fastkml.info c).slots) : n = .orEmpty ↔ ident c it = true := by
  have : ∀ c ∈ Cls.all, ∀ it ∈ fastkml.itemsOf c, scalar it.get = true → ∀ p ∈ (fastkml.info c).slots, p.1 = it.attr →
      decide (p.2 = .orEmpty) = decide (ident c it = true) := by decide +kernel
  exact decide_eq_decide.mp (this c (Cls.mem_all c) it hit hs _ hn rfl)

theorem trimmed_some {s u : Str} (h : trimmed (some s) = some u) : u ≠ [] ∧ strip u = u := by
  simp only [trimmed] at h
  split at h
  · cases h
  · rename_i h0
    cases h
    exact ⟨h0, strip_idem _⟩

theorem canonScalar_stored {strict : Bool} {it : Item Cls} {n : Norm} {b : Bool} (hb : n = .orEmpty ↔ b = true)
    {o : Option (Val Cls F)} (ho : ∀ v, o = some v → ∃ t, denotes strict it t = some v) :
    canonScalar it.get n (stored b o) := by
  cases o with
  | none =>
    simp only [stored]
    cases b
    · simpa [canonScalar] using hb
    · simp [canonScalar, hb]
  | some v =>
    obtain ⟨t, ht⟩ := ho v rfl
    cases v with
    | str s =>
      simp only [stored]
      cases b
      · simp only [Bool.false_eq_true, if_false]
        split
        · simpa [canonScalar] using hb
        · rename_i u hu
          exact Or.inr (trimmed_some hu)
      · simp [canonScalar, hb]
    | int i =>
      simp only [stored, canonScalar]
      constructor <;>
      · intro hg
        simp only [denotes, hg, Option.map_eq_some_iff] at ht
        obtain ⟨_, _, h⟩ := ht
        cases h
    | none =>
      exfalso
      unfold denotes at ht
      split at ht <;> first
        | (cases ht; done)
        | (rw [Option.map_eq_some_iff] at ht; obtain ⟨_, _, h⟩ := ht; cases h)
        | (split at ht
           · rw [Option.map_eq_some_iff] at ht; obtain ⟨_, _, h⟩ := ht; cases h
           · cases ht)
    | _ => trivial

/-- A list that was read is grouped by class. -/
theorem regroup_blocks {cs : List (PyType Cls)} (hn : cs.Nodup) {vss : List (List (Val Cls F))}
    (h : All2 (fun t vs => ∀ v ∈ vs, isInst [t] v = true) cs vss) : regroup cs vss.flatten = vss.flatten := by
  have key : ∀ (cs : List (PyType Cls)) (vss : List (List (Val Cls F))), cs.Nodup →
      All2 (fun t vs => ∀ v ∈ vs, isInst [t] v = true) cs vss →
      (∀ pre : List (Val Cls F), (∀ v ∈ pre, ∀ t ∈ cs, isInst [t] v = false) →
        (cs.flatMap fun t => (pre ++ vss.flatten).filter (isInst [t])) = vss.flatten) := by
    intro cs
    induction cs with
    | nil => intro vss _ h pre _; cases h; rfl
    | cons t cs ih =>
      intro vss hn h pre hpre
      cases h with
      | cons h1 h2 =>
        rename_i vs vss
        rw [List.nodup_cons] at hn
        have hne : ∀ (v : Val Cls F) u, isInst [t] v = true → u ∈ cs → isInst [u] v = false := by
          intro v u hv hu
          cases v <;> simp [isInst] at hv ⊢
          intro h; exact hn.1 (hv.symm.trans h ▸ hu)
        have hrest : ∀ (cs : List (PyType Cls)) (vss : List (List (Val Cls F))),
            All2 (fun t vs => ∀ v ∈ vs, isInst [t] v = true) cs vss → t ∉ cs → ∀ v ∈ vss.flatten, isInst [t] v = false := by
          intro cs vss h
          induction h with
          | nil => simp
          | cons h1 _ ih =>
            rename_i u us _ _ _
            intro ht v hv
            simp only [List.flatten_cons, List.mem_append] at hv
            rcases hv with hv | hv
            · have := h1 v hv
              cases v <;> simp [isInst] at this ⊢
              intro h; exact ht (by simp [← h, this])
            · exact ih (fun h => ht (by simp [h])) v hv
        rw [List.flatMap_cons, List.flatten_cons]
        congr 1
        · rw [List.filter_append, List.filter_append, List.filter_eq_nil_iff.mpr, List.filter_eq_self.mpr,
            List.filter_eq_nil_iff.mpr]
          · simp
          · intro v hv; simp [hrest _ _ h2 hn.1 v hv]
          · exact h1
          · intro v hv; simp [hpre v hv t (by simp)]
        · have := ih vss hn.2 h2 (pre ++ vs) (by
            intro v hv u hu
            rcases List.mem_append.mp hv with hv | hv
            · exact hpre v hv u (by simp [hu])
            · exact hne v u (h1 v hv) hu)
          rw [List.append_assoc] at this
          exact this
  simpa [regroup] using key cs vss hn h [] (by simp)

theorem construct_keys {c : Cls} {ns : Str} {nss : NsMap} {kw attrs : List (Str × Val Cls F)} {ns' : Str} {nss' : NsMap}
    (h : construct fastkml c ns nss kw = .ok (.obj c ns' nss' attrs))
    (hk : ∀ a v, (a, v) ∈ kw → a ∈ specialArgs (fastkml.info c).special ++ (fastkml.info c).slots.map Prod.fst) :
    attrs.map Prod.fst =
      (if (fastkml.info c).special = .track then [s% "track_items"] else []) ++ (fastkml.info c).slots.map Prod.fst := by
  obtain ⟨ex, sp, sl, hex, hsp, hsl, he⟩ := construct_ok h
  cases he
  have hex : ex = [] := by
    rw [hex, List.filter_eq_nil_iff]
    rintro ⟨a, v⟩ hm
    have := hk a v hm
    simp only [decide_eq_true_eq, Classical.not_not]
    exact this
  rw [hex, List.nil_append, List.map_append, fillSlots_keys hsl]
  congr 1
  cases hs : (fastkml.info c).special <;> rw [hs] at hsp <;> simp only [specialInit] at hsp
  case track =>
    split at hsp
    · cases hsp
    · cases hsp; rfl
  case schema =>
    split at hsp
    · cases hsp
    · split at hsp
      · cases hsp
      · cases hsp; rfl
    · cases hsp
  case placemark =>
    split at hsp
    · cases hsp
    · cases hsp; rfl
  all_goals (cases hsp; rfl)

theorem settled_parse {strict : Bool} {e : Xml} {c c' : Cls} {ns ns' : Str} {nss nss' : NsMap}
    {attrs : List (Str × Val Cls F)} (h : parse fastkml strict e c ns nss = .ok (.obj c' ns' nss' attrs)) :
    c' = c ∧ ns' = ns ∧ Settled (mergeNs nss) c nss' attrs := by
  have hR := fastkml_readOk c
  obtain ⟨r, hr, hc⟩ := parse_ok hR h
  obtain ⟨as, hs⟩ := construct_shape hc
  rw [mergeNs_idem] at hs
  cases hs
  refine ⟨rfl, rfl, rfl, ?_, ?_, ?_, ?_⟩
  · refine construct_keys hc fun a v ha => ?_
    obtain ⟨it, hit, rfl⟩ := List.mem_map.mp (kwOf_keys (List.mem_map_of_mem (f := Prod.fst) ha))
    exact hR.attr_known hit
  · intro a n hn hna
    obtain ⟨as', w, hs', hw, hd⟩ := construct_slot hc hR.known hn
    simp only [Val.obj.injEq, true_and] at hs'
    obtain ⟨_, rfl⟩ := hs'
    have h0 : kwGet a (kwOf r (fastkml.itemsOf c)) = .none := by
      have : dget a (kwOf r (fastkml.itemsOf c)) = none := by
        rw [dget_eq_none]
        intro hm
        obtain ⟨it, hit, h⟩ := List.mem_map.mp (kwOf_keys hm)
        exact hna it hit h
      simp [kwGet, this]
    rw [h0] at hw
    rw [attr_eq]
    unfold attrOf
    rw [hd]
    cases n <;> simp [normalise, truthy, info, Info.plain] at hw <;> simp [unset, ← hw]
  · intro it hit hs n hn
    rw [C14_scalar strict e c ns nss _ _ _ _ h it hit hs]
    exact canonScalar_stored (orEmpty_ident hit hs hn) fun v hv => firstValue_some hv
  · intro it hit hp l hl
    have hg : it.get = .xmlSubList := by revert hp; cases it.get <;> simp [place]
    obtain ⟨id, ids, vss, _, h2, h3⟩ := C11_list strict e c ns nss _ _ _ _ h it hit hg
    rw [hl] at h3
    have hb : regroup it.classes vss.flatten = vss.flatten := by
      refine regroup_blocks (fastkml_classesNodup c it hit) (h2.imp ?_)
      rintro t _ vs _ ⟨d, rfl, hd⟩ v hv
      obtain ⟨k, _, hk⟩ := hd.mem_right hv
      obtain ⟨as, rfl⟩ := (parse_typed fastkml_readOk hk).2
      simp [isInst]
    simp only [Val.list.injEq] at h3
    subst h3
    split
    · rw [regroup_filter, hb]
    · exact hb

/-- Everything that is read is settled. -/
theorem allSettled_parse {strict : Bool} {e : Xml} {c : Cls} {ns : Str} {nss : NsMap} {v : Val Cls F}
    (h : parse fastkml strict e c ns nss = .ok v) : AllSettled (mergeNs nss) v := by
  intro c' ns' nss' as hin
  rcases parse_inside e h hin with rfl | ⟨k, _, d, _, _, _, hd⟩
  · exact (settled_parse h).1 ▸ (settled_parse h).2.2
  · have := (settled_parse hd).2.2
    rwa [mergeNs_idem] at this

/-- Coordinates of the right dimension. -/
theorem typed_points (v : Val Cls F) : typed fastkml anyPt v = true →
    Everywhere (fun _ _ _ attrs => ∀ a l, (a, .coords l) ∈ attrs → ∀ p ∈ l, dim23 p = true) v →
    typed fastkml dim23 v = true := by
  induction v using Val.objInd with
  | hother v hv => intro _ _; cases v <;> first | exact absurd rfl (hv _ _ _ _) | simp only [typed]
  | hobj c ns nss attrs ih1 ih2 =>
    intro ht hp
    obtain ⟨h1, h2, h3, h4⟩ := typed_obj.mp ht
    have hpt := hp c ns nss attrs .self
    refine typed_obj.mpr ⟨fun it hit => ?_, h2, fun a v hm => ih1 a v hm (h3 a v hm) (everywhere_attr hp hm),
      fun a l hm w hw => ih2 a l hm w hw (h4 a l hm w hw) (everywhere_member (everywhere_attr hp hm) hw)⟩
    have hk := h1 it hit
    revert hk
    simp only [kindOk]
    cases it.get <;> first
      | exact id
      | (cases hv : attrOf it.attr attrs <;> first
          | exact id
          | (intro _
             have := hpt _ _ (attrOf_mem hv (by simp))
             simpa only [List.all_eq_true] using this))

theorem home_parse {strict : Bool} {e : Xml} {c : Cls} {N : NsMap} (hN : NsOk N) (hm : mergeNs N = N) {v : Val Cls F}
    (hs : Standard N e) (h : parse fastkml strict e c (nsGet N (fastkml.info c).nsid) N = .ok v) :
    Everywhere (fun c ns nss _ => Home fastkml N c ns nss) v := by
  intro c' ns' nss' as hin
  have hset := (allSettled_parse h c' ns' nss' as hin).nss
  rw [hm] at hset
  refine ⟨hset, ?_⟩
  rcases parse_inside e h hin with rfl | ⟨k, hk, d, hd, ht, ⟨_, _, _, _, _, id, _, hid⟩, _⟩
  · obtain ⟨rfl, h2, _⟩ := settled_parse h
    exact h2
  · refine hs d (.kid hk hd) c' ns' ?_ ht
    rw [hid, hm]
    exact nsGet_form hN id

end

section
variable {F : Type} [PyExt F] [LawfulExt F]

theorem time_read {s : Str} {k : KmlDateTime} (h : KmlDateTime.parse (PyExt.arrowGet F) s = some k) (hy : FullYear k) :
    Rereadable k := by
  refine ⟨?_, hy, ?_⟩
  · simp only [KmlDateTime.parse] at h
    split at h
    · split at h
      · cases h
      · rename_i dt hdt
        cases h
        refine ⟨_, _, ?_, rfl⟩
        simp only [mkDate] at hdt
        split at hdt
        · cases hdt; assumption
        · cases hdt
    · split at h
      · cases h
      · rename_i d t ha
        cases h
        have := LawfulExt.arrow_valid (F := F) _ _ _ ha
        exact ⟨.dt d t, some .datetime, show d.Valid ∧ t.Valid from ⟨this.1, this.2.1⟩, rfl⟩
  · intro d t hk
    simp only [KmlDateTime.parse] at h
    split at h
    · split at h
      · cases h
      · cases h
        simp only [KmlDateTime.mk', adjustDate] at hk
        repeat' split at hk
        all_goals cases hk
    · split at h
      · cases h
      · rename_i d' t' ha
        cases h
        have := LawfulExt.arrow_valid (F := F) _ _ _ ha
        simp only [KmlDateTime.mk', adjustDate] at hk
        cases hk
        exact this.2.2

theorem gathered_mem {α : Type} {f : Xml → Option α} {N : NsMap} {e : Xml} {node : Str} {ids : List Str} {a : α}
    (h : a ∈ gathered f N e node ids) : ∃ k, f k = some a := by
  induction ids with
  | nil => cases h
  | cons id ids ih =>
    simp only [gathered] at h
    split at h
    · exact ih h
    · rename_i l _
      obtain ⟨k, _, hk⟩ := List.mem_filterMap.mp h
      exact ⟨k, hk⟩

theorem only_track {c : Cls} (h : (fastkml.info c).special = .track) : c = .Track := by
  have : ∀ c ∈ Cls.all, (fastkml.info c).special = .track → c = .Track := by decide +kernel
  exact this c (Cls.mem_all c) h

theorem rows_items {r : TrackItem F} {attrs : List (Str × Val Cls F)} (hr : r ∈ rows attrs) :
    ∃ l, attrOf (s% "track_items") attrs = .items l ∧ rows attrs = l := by
  unfold rows at hr ⊢
  rw [attr_eq] at hr ⊢
  split at hr
  · rename_i l hv; exact ⟨l, hv, rfl⟩
  · cases hr

theorem complete_parse {strict : Bool} {e : Xml} {c c' : Cls} {ns ns' : Str} {nss nss' : NsMap}
    {attrs : List (Str × Val Cls F)} (h : parse fastkml strict e c ns nss = .ok (.obj c' ns' nss' attrs))
    (hl : Lasting c' ns' nss' attrs) : Complete fastkml c' ns' nss' attrs := by
  obtain ⟨rfl, rfl, hset⟩ := settled_parse h
  refine ⟨fun it hit hg k hk => ?_, fun hsp r hr => ?_, fun hsp => ?_, fun hsp ⟨r, hr, hn⟩ => ?_, fun hsp => ?_⟩
  · have hy := hl.years _ k (attrOf_mem hk (by simp))
    have hv := C14_scalar strict e c' ns' nss _ _ _ _ h it hit (by simp [hg, scalar, place])
    rw [hk] at hv
    cases ho : firstValue (F := F) strict it (mergeNs nss) e it.nsIds with
    | none => rw [ho] at hv; simp only [stored] at hv; split at hv <;> cases hv
    | some w =>
      obtain ⟨t, ht⟩ := firstValue_some ho
      simp only [denotes, hg, Option.map_eq_some_iff] at ht
      obtain ⟨k', hk', rfl⟩ := ht
      rw [ho] at hv
      simp only [stored, Val.dt.injEq] at hv
      subst hv
      exact time_read hk' hy
  · have hc := only_track hsp
    subst hc
    have h33 := C33_rows h
    split at h33
    · rw [h33] at hr; cases hr
    · obtain ⟨⟨hlen, hrow⟩, _⟩ := h33
      obtain ⟨l, hl1, hl2⟩ := rows_items hr
      obtain ⟨hy, hnan⟩ := hl.rows _ l (attrOf_mem hl1 (by simp)) r (hl2 ▸ hr)
      obtain ⟨i, hi⟩ := List.getElem?_of_mem hr
      have hlt : i < (positionsOf (F := F) (mergeNs nss) e).length := by
        rw [← hlen]; exact (List.getElem?_eq_some_iff.mp hi).1
      have := hrow i _ (List.getElem?_eq_getElem hlt)
      rw [hi, Option.some.injEq] at this
      subst this
      refine ⟨fun k hw => ?_, rfl, ?_⟩
      · have hy := hy k hw
        simp only [List.getElem?_map, Option.join_eq_some_iff, Option.map_eq_some_iff, Option.some.injEq] at hw
        obtain ⟨k', hk', rfl⟩ := hw
        obtain ⟨x, hx⟩ := gathered_mem (List.mem_of_getElem? hk')
        simp only [timeIn, Option.bind_eq_some_iff] at hx
        obtain ⟨t, _, ht⟩ := hx
        exact time_read ht hy
      · simp only [ptEmpty, List.any_eq_false]
        intro f hf
        simp [hnan f hf]
  · have hc := only_track hsp
    subst hc
    have h33 := C33_rows h
    split at h33
    · exact Or.inl h33
    · rename_i hne
      obtain ⟨⟨hlen, hrow⟩, hle⟩ := h33
      refine Or.inr ⟨(rows attrs).take (timesOf F (mergeNs nss) e).length,
        (rows attrs).drop (timesOf F (mergeNs nss) e).length, (List.take_append_drop _ _).symm, ?_, ?_, ?_⟩
      · intro h0
        have := congrArg List.length h0
        simp only [List.length_take, hlen, List.length_nil] at this
        have h1 : (timesOf F (mergeNs nss) e).length ≠ 0 := fun h => hne (Or.inl (List.length_eq_zero_iff.mp h))
        omega
      · intro r hr
        obtain ⟨i, hi⟩ := List.getElem?_of_mem hr
        rw [List.getElem?_take] at hi
        split at hi
        · rename_i hlt
          have := hrow i _ (List.getElem?_eq_getElem (Nat.lt_of_lt_of_le hlt hle))
          rw [hi, Option.some.injEq] at this
          subst this
          simp [List.getElem?_eq_getElem hlt]
        · cases hi
      · intro r hr
        obtain ⟨i, hi⟩ := List.getElem?_of_mem hr
        rw [List.getElem?_drop] at hi
        have hlt := (List.getElem?_eq_some_iff.mp hi).1
        rw [hlen] at hlt
        have := hrow _ _ (List.getElem?_eq_getElem hlt)
        rw [hi, Option.some.injEq] at this
        subst this
        simp
  · obtain ⟨l, hl1, hl2⟩ := rows_items hr
    exact hl.untimed _ l (attrOf_mem hl1 (by simp)) ⟨r, hl2 ▸ hr, hn⟩
  · have hc : c' = .Schema := by
      have : ∀ c ∈ Cls.all, (fastkml.info c).special = .schema → c = .Schema := by decide +kernel
      exact this c' (Cls.mem_all c') hsp
    subst hc
    have hne := hl.schema rfl
    obtain ⟨i, hi, ha, hg, _⟩ := (fastkml_cycleOk .Schema).schema hsp
    have hk := (typed_obj.mp (parse_typed fastkml_readOk h).1).1 i hi
    obtain ⟨n, hn, _⟩ := slotOk_slot ((fastkml_readOk .Schema).slots i hi) (by simp [hg]) (by simp [hg])
    have hcs := hset.scalar i hi (by simp [hg, scalar, place]) n hn
    rw [ha] at hk hcs hn
    rw [attr_eq] at hne hcs ⊢
    have hn' : n ≠ .orEmpty := by
      have : ∀ p ∈ (fastkml.info Cls.Schema).slots, p.1 = s% "id" → p.2 ≠ .orEmpty := by decide +kernel
      exact this _ hn rfl
    cases hv : attrOf (s% "id") attrs <;> rw [hv] at hk hcs hne <;> simp [kindOk, hg] at hk hne
    rename_i t
    exact ⟨t, rfl, (hcs.resolve_left hn').1⟩

/-- An object that was read, without empty objects in it, is canonical. -/
theorem canonical_settled {N : NsMap} {v : Val Cls F} (ht : Everywhere (fun c _ _ attrs => objOk fastkml dim23 c attrs = true) v)
    (hs : AllSettled N v) (hne : Everywhere (fun _ _ _ attrs => NoEmptyChild fastkml attrs) v) :
    AllCanonical fastkml N v := by
  intro c ns nss attrs hin
  have K : Settled N c nss attrs := hs c ns nss attrs hin
  obtain ⟨h1, h2⟩ := hne c ns nss attrs hin
  have hk := (objOk_iff.mp (ht c ns nss attrs hin)).1
  refine ⟨K.nss, K.layout, K.unregistered, K.scalar, fun it hit hp => ?_, fun it hit hp l hl => ?_⟩
  · have hg : it.get = .xmlSub := by revert hp; cases it.get <;> simp [place]
    have hk := hk it hit
    rw [attr_eq]
    simp only [kindOk, hg] at hk
    cases hv : attrOf it.attr attrs <;> rw [hv] at hk <;> simp [isInst] at hk
    · exact Or.inl rfl
    · exact Or.inr (h1 _ _ _ _ _ (attrOf_mem hv (by simp)))
  · exact ⟨h2 _ l (attrOf_mem hl (by simp)), K.grouped it hit hp l hl⟩

/-- What is read satisfies the conditions under which it can be written and read. -/
theorem opened {strict : Bool} {e : Xml} {c : Cls} {N : NsMap} (hN : NsOk N) (hm : mergeNs N = N) (h0 : nsGet N [] = [])
    (h1 : nsGet N (s% "kml") ≠ []) (hs : Standard N e) {v : Val Cls F}
    (h : parse fastkml strict e c (nsGet N (fastkml.info c).nsid) N = .ok v)
    (hl : Everywhere (fun c ns nss attrs => Lasting c ns nss attrs) v) :
    (∃ attrs, v = .obj c (nsGet N (fastkml.info c).nsid) N attrs) ∧ typed fastkml dim23 v = true ∧ AllSettled N v ∧
      Everywhere (fun c _ _ attrs => objOk fastkml dim23 c attrs = true) v ∧
      ∀ o, Everywhere (Readable fastkml o N) v := by
  have hset := allSettled_parse h
  rw [hm] at hset
  obtain ⟨hty, attrs, hv⟩ := parse_typed fastkml_readOk h
  rw [hm] at hv
  have hty := typed_points v hty fun c ns nss as hin a l hm p hp =>
    decide_eq_true ((hl c ns nss as hin).points a l hm p hp)
  have hobj : Everywhere (fun c _ _ attrs => objOk fastkml dim23 c attrs = true) v :=
    objOk_laid fastkml_readOk v hty (fun c ns nss as hin =>
      ⟨(hset c ns nss as hin).layout, (hset c ns nss as hin).unregistered⟩) ⟨_, _, _, _, hv⟩
  refine ⟨⟨attrs, hv⟩, hty, hset, hobj, C02_readable hobj h0 h1 (home_parse hN hm hs h) ?_⟩
  intro c' ns' nss' as hin
  rcases parse_inside e h hin with rfl | ⟨k, _, d, _, _, _, hd⟩
  · exact complete_parse h (hl _ _ _ _ hin)
  · exact complete_parse hd (hl _ _ _ _ hin)

theorem reopened {strict : Bool} {e : Xml} {c : Cls} {N : NsMap} (hN : NsOk N) (hm : mergeNs N = N) (h0 : nsGet N [] = [])
    (h1 : nsGet N (s% "kml") ≠ []) (hs : Standard N e) {v : Val Cls F}
    (h : parse fastkml strict e c (nsGet N (fastkml.info c).nsid) N = .ok v)
    (hl : Everywhere (fun c ns nss attrs => Lasting c ns nss attrs) v) :
    ∃ e', ser fastkml ⟨none, .normal⟩ v = .ok e' ∧ e'.tag = nsGet N (fastkml.info c).nsid ++ (fastkml.info c).tag ∧
      ∀ strict', parse fastkml strict' e' c (nsGet N (fastkml.info c).nsid) N = .ok (prune v) := by
  obtain ⟨⟨attrs, rfl⟩, hty, hset, _, hread⟩ := opened hN hm h0 h1 hs h hl
  have hr := hread ⟨none, .normal⟩
  obtain ⟨e', he', _⟩ := C02_cycle (M := N) hty hN (by rw [hm]; exact hr) false
  refine ⟨e', he', ser_tag fastkml_writeOk hty he', fun strict' => ?_⟩
  obtain ⟨e'', he'', h'⟩ := C02_cycle (M := N) hty hN (by rw [hm]; exact hr) strict'
  rw [he'] at he''
  cases he''
  unfold fromElement at h'
  rw [Option.getD_some, hm, cycle_settled _ hty hset ⟨_, _, _, _, rfl⟩] at h'
  exact h'

/-- Without empty objects nothing is lost. -/
theorem prune_same {N : NsMap} {v : Val Cls F} (hv : ∃ c ns nss as, v = .obj c ns nss as) (ht : typed fastkml dim23 v = true)
    (hobj : Everywhere (fun c _ _ attrs => objOk fastkml dim23 c attrs = true) v) (hs : AllSettled N v)
    (hne : Everywhere (fun _ _ _ attrs => NoEmptyChild fastkml attrs) v) : prune v = v := by
  rw [← cycle_settled v ht hs hv, cycle_canonical fastkml_readOk (changes_normal fastkml_cycleOk _) _ ht
    (canonical_settled hobj hs hne) hv, mapScalars_id]

/-- **C60.** Open a document, save it, open it again: the result is the same, except for
empty objects, which are lost.  The document may be anything that can be opened, in which
the elements for the classes of fastkml are in their standard namespaces; it may have been
opened in any mode. -/
theorem C60_reopen {strict : Bool} {e : Xml} {c : Cls} {M : NsMap} (hM : NsOk M) (h0 : nsGet (mergeNs M) [] = [])
    (h1 : nsGet (mergeNs M) (s% "kml") ≠ []) (hs : Standard (mergeNs M) e) {v : Val Cls F}
    (h : fromElement fastkml strict c none M e = .ok v)
    (hl : Everywhere (fun c ns nss attrs => Lasting c ns nss attrs) v) :
    ∃ e', ser fastkml ⟨none, .normal⟩ v = .ok e' ∧
      ∀ strict', fromElement fastkml strict' c none M e' = .ok (prune v) := by
  obtain ⟨e', h2, _, h3⟩ := reopened (nsOk_merge hM) (mergeNs_idem M) h0 h1 hs h hl
  exact ⟨e', h2, h3⟩

/-- **C60, without loss.** If no object in what was opened is empty, opening what was
saved gives exactly the same. -/
theorem C60_same {strict : Bool} {e : Xml} {c : Cls} {M : NsMap} (hM : NsOk M) (h0 : nsGet (mergeNs M) [] = [])
    (h1 : nsGet (mergeNs M) (s% "kml") ≠ []) (hs : Standard (mergeNs M) e) {v : Val Cls F}
    (h : fromElement fastkml strict c none M e = .ok v)
    (hl : Everywhere (fun c ns nss attrs => Lasting c ns nss attrs) v)
    (hne : Everywhere (fun _ _ _ attrs => NoEmptyChild fastkml attrs) v) :
    ∃ e', ser fastkml ⟨none, .normal⟩ v = .ok e' ∧
      ∀ strict', fromElement fastkml strict' c none M e' = .ok v := by
  obtain ⟨e', h2, h3⟩ := C60_reopen hM h0 h1 hs h hl
  obtain ⟨⟨_, hv⟩, hty, hset, hobj, _⟩ := opened (nsOk_merge hM) (mergeNs_idem M) h0 h1 hs h hl
  rw [prune_same ⟨_, _, _, _, hv⟩ hty hobj hset hne] at h3
  exact ⟨e', h2, h3⟩

/-- **C60, other verbosities.** Saved verbosely, what was opened comes back with the
defaults filled in; saved tersely, without the attributes that have the default. -/
theorem C60_verbosity {strict : Bool} {e : Xml} {c : Cls} {M : NsMap} (hM : NsOk M) (h0 : nsGet (mergeNs M) [] = [])
    (h1 : nsGet (mergeNs M) (s% "kml") ≠ []) (hs : Standard (mergeNs M) e) {v : Val Cls F}
    (h : fromElement fastkml strict c none M e = .ok v)
    (hl : Everywhere (fun c ns nss attrs => Lasting c ns nss attrs) v)
    (hne : Everywhere (fun _ _ _ attrs => NoEmptyChild fastkml attrs) v) (strict' : Bool) :
    (∃ e', ser fastkml ⟨none, .verbose⟩ v = .ok e' ∧
      fromElement fastkml strict' c none M e' = .ok (fillDefaults fastkml v)) ∧
    (∃ e', ser fastkml ⟨none, .terse⟩ v = .ok e' ∧
      fromElement fastkml strict' c none M e' = .ok (dropDefaults fastkml v)) := by
  obtain ⟨⟨attrs, rfl⟩, hty, hset, hobj, hread⟩ := opened (nsOk_merge hM) (mergeNs_idem M) h0 h1 hs h hl
  have hc := canonical_settled hobj hset hne
  exact ⟨C04_read hty hM (hread _) hc strict', C03_read hty hM (hread _) hc strict'⟩

/-- What `KML.parse` makes of a root element in the namespace `n`, in terms of `parse`. -/
theorem parseRoot_parse {n : Str} (hn : NsForm n) (hn0 : n ≠ []) {nss : Option NsMap}
    (hd : ((nss.getD []).map Prod.fst).Nodup) (hN : NsOk (nss.getD [])) (h0 : nsGet (mergeNs (nss.getD [])) [] = []) :
    NsOk (mergeNs (dset (s% "kml") n (nss.getD []))) ∧
    nsGet (mergeNs (dset (s% "kml") n (nss.getD []))) [] = [] ∧
    nsGet (mergeNs (dset (s% "kml") n (nss.getD []))) (s% "kml") ≠ [] ∧
    nsGet (mergeNs (dset (s% "kml") n (nss.getD []))) (fastkml.info .KML).nsid = n ∧
    ∀ strict (root : Xml), root.tag = n ++ s% "kml" → parseRoot (F := F) none nss strict root =
      parse fastkml strict root .KML (nsGet (mergeNs (dset (s% "kml") n (nss.getD []))) (fastkml.info .KML).nsid)
        (mergeNs (dset (s% "kml") n (nss.getD []))) := by
  have hdet : ∀ r : Xml, r.tag = n ++ s% "kml" → detectNs none r = n := by
    intro r h
    have hl : (n ++ s% "kml").length - 3 = n.length := by simp
    simp only [detectNs, h, hl, List.take_left']
    have : endsWith (s% "kml") (n ++ s% "kml") = true := by simp [endsWith]
    rw [this]; rfl
  have hget : ∀ i, nsGet (mergeNs (dset (s% "kml") n (nss.getD []))) i =
      if s% "kml" = i then n else nsGet (mergeNs (nss.getD [])) i := by
    intro i
    unfold nsGet mergeNs
    rw [dget_dupdate _ _ _ (dset_nodup hd), dget_dset, dget_dupdate _ _ _ hd]
    split <;> simp
  have hnk : nsGet (mergeNs (dset (s% "kml") n (nss.getD []))) (fastkml.info .KML).nsid = n := by
    rw [hget]; rfl
  refine ⟨nsOk_merge (nsOk_dset hN hn), ?_, ?_, hnk, fun strict root hr => ?_⟩
  · rw [hget, if_neg (by decide), h0]
  · rw [hget, if_pos rfl]; exact hn0
  · rw [hnk]
    unfold parseRoot
    rw [hdet root hr]
    simp only [parseNss, ne_eq, hn0, not_false_eq_true, if_true]

/-- **C60, documents.** Open a document with `KML.parse`, save it, and open it with
`KML.parse`: the same but for empty objects.  The root is `kml` in any namespace `n`; the
KML elements are in `n` too. -/
theorem C60_kml {strict : Bool} {root : Xml} {n : Str} (hn : NsForm n) (hn0 : n ≠ []) (hr : root.tag = n ++ s% "kml")
    {nss : Option NsMap}
    (hd : ((nss.getD []).map Prod.fst).Nodup) (hN : NsOk (nss.getD [])) (h0 : nsGet (mergeNs (nss.getD [])) [] = [])
    (hs : Standard (mergeNs (dset (s% "kml") n (nss.getD []))) root) {v : Val Cls F}
    (h : parseRoot none nss strict root = .ok v) (hl : Everywhere (fun c ns nss attrs => Lasting c ns nss attrs) v) :
    ∃ root', ser fastkml ⟨none, .normal⟩ v = .ok root' ∧ root'.tag = root.tag ∧
      (∀ strict', parseRoot none nss strict' root' = .ok (prune v)) ∧
      (Everywhere (fun _ _ _ attrs => NoEmptyChild fastkml attrs) v → prune v = v) := by
  obtain ⟨hM, hg0, hg1, hnk, hpr⟩ := parseRoot_parse (F := F) hn hn0 hd hN h0
  have h' := (hpr strict root hr).symm.trans h
  obtain ⟨root', h2, h3, h4⟩ := reopened hM (mergeNs_idem _) hg0 hg1 hs h' hl
  obtain ⟨⟨_, hv⟩, hty, hset, hobj, _⟩ := opened hM (mergeNs_idem _) hg0 hg1 hs h' hl
  rw [hnk] at h3
  refine ⟨root', h2, by rw [h3, hr]; rfl, fun strict' => ?_, prune_same ⟨_, _, _, _, hv⟩ hty hobj hset⟩
  rw [hpr strict' root' h3]
  exact h4 strict'

end

/-! ## Cases -/

section
variable {F : Type} [PyExt F]

mutual
/-- `Standard`, computed. -/
def standardB (N : NsMap) : Xml → Bool
  | .mk tag _ _ kids => (Cls.all.all fun c => !sameStr (localName tag) (fastkml.info c).tag ||
      sameStr tag (nsGet N (fastkml.info c).nsid ++ (fastkml.info c).tag)) && standardsB N kids
termination_by structural e => e
/-- For a list of elements. -/
def standardsB (N : NsMap) : List Xml → Bool
  | [] => true
  | k :: r => standardB N k && standardsB N r
termination_by structural l => l
end

theorem standardsB_mem {N : NsMap} : ∀ {l : List Xml}, standardsB N l = true → ∀ k ∈ l, standardB N k = true
  | [], _, _, hk => by cases hk
  | j :: l, h, k, hk => by
    simp only [standardsB, Bool.and_eq_true] at h
    rcases List.mem_cons.mp hk with rfl | hk
    · exact h.1
    · exact standardsB_mem h.2 k hk

theorem standardB_of {N : NsMap} {e : Xml} (h : standardB N e = true) : Standard N e := by
  intro d hd
  induction hd with
  | refl e =>
    intro c n hn ht
    cases e with
    | mk tag as t kids =>
      simp only [standardB, Bool.and_eq_true, List.all_eq_true] at h
      have h1 := h.1 c (Cls.mem_all c)
      have hb : '}' ∉ (fastkml.info c).tag := by
        have : ∀ c ∈ Cls.all, '}' ∉ (fastkml.info c).tag := by decide +kernel
        exact this c (Cls.mem_all c)
      simp only [Xml.tag] at ht
      rw [ht, localOf_append hn hb] at h1
      simp only [sameStr_iff, Bool.or_eq_true, Bool.not_eq_true', Bool.eq_false_iff, ne_eq, not_true_eq_false, false_or] at h1
      exact List.append_cancel_right h1
  | @kid e k d hk _ ih =>
    cases e with
    | mk tag as t kids =>
      simp only [standardB, Bool.and_eq_true] at h
      exact ih (standardsB_mem h.2 k hk)

/-- `FullYear`, computed. -/
def fullYearB (k : KmlDateTime) : Bool := !(decide (k.res = .year) || decide (k.res = .yearMonth)) || decide (1000 ≤ k.dt.day.y)

theorem fullYearB_of {k : KmlDateTime} (h : fullYearB k = true) : FullYear k := by
  intro hr
  unfold fullYearB at h
  rcases hr with hr | hr <;> simpa [hr] using h

/-- `Lasting`, computed. -/
def lastingB (c : Cls) (ns : Str) (nss : NsMap) (attrs : List (Str × Val Cls F)) : Bool :=
  (attrs.all fun p => match p.2 with
    | .dt k => fullYearB k
    | .items l => l.all fun r => (match r.when_ with | some k => fullYearB k | none => !decide (ns = nsGet nss (s% "kml"))) &&
        r.coord.all fun f => !PyExt.isNaN f
    | .coords l => l.all fun p => decide (p.length = 2) || decide (p.length = 3)
    | _ => true) && (!decide (c = .Schema) || match attr (s% "id") attrs with | .none => false | _ => true)

theorem lastingB_of {c : Cls} {ns : Str} {nss : NsMap} {attrs : List (Str × Val Cls F)}
    (h : lastingB c ns nss attrs = true) : Lasting c ns nss attrs := by
  simp only [lastingB, Bool.and_eq_true, List.all_eq_true] at h
  refine ⟨fun a k hm => fullYearB_of (h.1 _ hm), fun a l hm r hr => ?_, fun a l hm ⟨r, hr, hn⟩ => ?_,
    fun a l hm p hp => ?_, fun hc hn => ?_⟩
  · have h1 := h.1 _ hm
    simp only [List.all_eq_true, Bool.and_eq_true] at h1
    obtain ⟨h2, h3⟩ := h1 r hr
    refine ⟨fun k hw => ?_, fun f hf => by simpa using h3 f hf⟩
    rw [hw] at h2
    exact fullYearB_of h2
  · have h1 := h.1 _ hm
    simp only [List.all_eq_true, Bool.and_eq_true] at h1
    have h2 := (h1 r hr).1
    rw [hn] at h2
    simpa using h2
  · have h1 := h.1 _ hm
    simp only [List.all_eq_true] at h1
    simpa using h1 p hp
  · have h2 := h.2
    simp [hc, hn] at h2

end

/-- A tag of KML, of the extensions of Google. -/
def kEl (t : Str) (kids : List Xml) : Xml := .mk (kmlNs ++ t) [] none kids

/-- A document with a schema, a style, a folder, a placemark with a time and data, and a
placemark with a track, whose last position has no time. -/
def openDoc (more : List Xml) : Xml := kEl (s% "kml") [kEl (s% "Document") (more ++ [
  .mk (kmlNs ++ s% "Schema") [(s% "id", s% " sc"), (s% "name", s% "x")] none [
    .mk (kmlNs ++ s% "SimpleField") [(s% "name", s% "f"), (s% "type", s% "string")] none []],
  .mk (kmlNs ++ s% "Style") [(s% "id", s% "s")] none [kEl (s% "LineStyle") [.leaf (kmlNs ++ s% "width") (s% "2.5")]],
  kEl (s% "Folder") [kEl (s% "Placemark") [
    .leaf (kmlNs ++ s% "name") (s% "  a "), .leaf (kmlNs ++ s% "visibility") (s% "true"),
    kEl (s% "TimeStamp") [.leaf (kmlNs ++ s% "when") (s% "2020-02")],
    kEl (s% "Point") [.leaf (kmlNs ++ s% "coordinates") (s% " 1,2 ")],
    kEl (s% "ExtendedData") [.mk (kmlNs ++ s% "Data") [(s% "name", s% "k")] none [.leaf (kmlNs ++ s% "value") (s% "v w")]]]],
  kEl (s% "Placemark") [trackDoc [s% "2020-01-01", s% "2020-01-03"] [s% "1 1", s% "3 3 3", s% "4 4"]]])]

/-- The document has the properties the theorems ask for, once with nothing empty in it,
once with an empty placemark and an empty style: what is opened is found to be different
afterwards. -/
def opens (more : List Xml) (same : Bool) : Bool :=
  standardB (mergeNs (dset (s% "kml") kmlNs [])) (openDoc more) &&
  match parseRoot (F := Fix) none none true (openDoc more) with
  | .ok v => everywhereB (fun c ns nss attrs => lastingB c ns nss attrs) v && (decide (prune v = v) == same) &&
    (everywhereB (fun _ _ _ attrs => noEmptyChildB fastkml attrs) v == same)
  | .error _ => false

example : opens [] true = true := by decide +kernel
example : opens [kEl (s% "Placemark") [kEl (s% "Point") []], kEl (s% "Style") []] false = true := by decide +kernel


/-! ## What is excluded

For each condition, a document that does not meet it, and does not come back. -/

/-- Open, save and open again. -/
inductive Reopened where
  | notOpened
  /-- Saving raises an error. -/
  | notSaved
  /-- Opening what was saved raises an error. -/
  | notReopened (e : Err)
  | other
  | same
deriving DecidableEq

/-- What becomes of a document. -/
def reopen (c : Cls) (e : Xml) : Reopened :=
  match fromElement (F := Fix) fastkml true c none [] e with
  | .error _ => .notOpened
  | .ok v => match ser fastkml ⟨none, .normal⟩ v with
    | .error _ => .notSaved
    | .ok e' => match fromElement (F := Fix) fastkml true c none [] e' with
      | .error x => .notReopened x
      | .ok w => if w = prune v then .same else .other

/-- The id of a schema is spaces: it is stored as `None` and not written, and a schema
without id cannot be read. -/
theorem C60_blank_schema_id :
    reopen .Document (kEl (s% "Document") [.mk (kmlNs ++ s% "Schema") [(s% "id", s% " ")] none []]) = .notReopened .schemaError := by
  decide +kernel

/-- The year 999 without a day is written as `999`, which is no time. -/
theorem C60_year_999 :
    reopen .Document (kEl (s% "Document") [kEl (s% "TimeStamp") [.leaf (kmlNs ++ s% "when") (s% "0999")]]) =
      .notReopened .parseError := by decide +kernel

/-- Coordinates with four components are read, but cannot be written. -/
theorem C60_four_components :
    reopen .LineString (kEl (s% "LineString") [.leaf (kmlNs ++ s% "coordinates") (s% "1,2,3,4")]) = .notSaved := by decide +kernel

/-- A `Track` in the namespace of KML, not in that of the extensions, is read and written,
but its coordinates are then in a namespace in which they are not read. -/
theorem C60_track_namespace :
    reopen .Document (kEl (s% "Document") [kEl (s% "Placemark") [kEl (s% "Track") [
      .leaf (kmlNs ++ s% "when") (s% "2020"), .leaf (gxNs ++ s% "coord") (s% "1 2")]]]) = .other := by decide +kernel

end Verif
