import Verif.Lemmas.ReprEval
import Verif.Lemmas.Inside

/-!
# Printing twice; printing what was read
-/

set_option linter.unusedSectionVars false
set_option linter.unusedSimpArgs false

namespace Verif
open Spec

variable {F : Type} [PyExt F] [PyClose F] [LawfulExt F] [LawfulClose F]

/-! ## Printing the rebuilt object -/

theorem printed_rebuilt {conv : Conv} {w : Val Cls F} {r : Except Err (PExpr F)} :
    printed conv (rebuilt w) r = printed conv w r := by
  cases conv
  · rfl
  · cases w <;> simp only [rebuilt, printed]

theorem geometryClasses_repr {c : Cls} (hc : c ∈ geometryClasses) {f : Str × Str × Conv} (hf : f ∈ reprFields c) :
    f.2.1 ∉ ofGeometry c := by
  have : ∀ c ∈ geometryClasses, ∀ f ∈ reprFields c, f.2.1 ∉ ofGeometry c := by decide +kernel
  exact this c hc f hf

theorem dget_fromGeometry {c : Cls} {g : Option (Geo F)} {attrs : List (Str × Val Cls F)} {a : Str}
    (h : a ∉ ofGeometry c) : dget a (fromGeometry c g attrs) = dget a attrs := by
  simp only [ofGeometry] at h
  simp only [fromGeometry]
  split
  · rename_i hc
    rw [if_pos hc] at h
    simp only [List.mem_singleton] at h
    simp only [dget_putAttr, if_neg h]
  · rename_i hc
    rw [if_neg hc] at h
    split
    · rename_i hp
      rw [if_pos hp] at h
      simp only [List.mem_cons, List.not_mem_nil, or_false, not_or] at h
      simp only [dget_putAttr, if_neg h.1, if_neg h.2]
    · rfl

theorem repr_rebuilt (v : Val Cls F) : AllRegular v → NoNaN v → reprOf (rebuilt v) = reprOf v := by
  induction v using Val.deepInd with
  | hother v hv hl =>
    intro _ _
    cases v <;> first | exact absurd rfl (hv _ _ _ _) | exact absurd rfl (hl _) | simp only [rebuilt]
  | hlist l ih =>
    intro hr hn
    simp only [rebuilt, reprOf, rebuiltList_eq]
    congr 2
    have : ∀ l : List (Val Cls F), (∀ v ∈ l, reprOf (rebuilt v) = reprOf v) → reprList (l.map rebuilt) = reprList l := by
      intro l
      induction l with
      | nil => intro _; rfl
      | cons v l ihl =>
        intro h
        simp only [List.map_cons, reprList, h v (by simp), ihl fun v hv => h v (by simp [hv])]
    exact this l fun v hv => ih v hv (hr.member hv) (hn.member hv)
  | hobj c ns nss attrs ih =>
    intro hr hn
    have hinfo := info_rebuilt _ hr hn
    have hR : Inst.Reg ⟨c, ns, nss, attrs⟩ := hr _ _ _ _ .self
    have hR' := regular_rebuilt_obj hr hn
    have h1 : Inst.splat ⟨c, ns, nss, attrs⟩ = [] := hR.splat
    have h2 : Inst.splat ⟨c, ns, nss, fromGeometry c (geometryOf (.obj c ns nss attrs)) (rebuiltAttrs attrs)⟩ = [] :=
      Inst.Reg.splat hR'
    simp only [rebuilt] at hinfo ⊢
    simp only [reprOf, reprStep, h1, h2]
    have : ∀ f ∈ reprFields c,
        reprArg (.obj c ns nss (fromGeometry c (geometryOf (.obj c ns nss attrs)) (rebuiltAttrs attrs)))
          (fromGeometry c (geometryOf (.obj c ns nss attrs)) (rebuiltAttrs attrs))
          (reprAttrs (fromGeometry c (geometryOf (.obj c ns nss attrs)) (rebuiltAttrs attrs))) f.2.1 f.2.2 =
        reprArg (.obj c ns nss attrs) attrs (reprAttrs attrs) f.2.1 f.2.2 := by
      intro f hf
      have ho : f.2.1 ∉ ofGeometry c := by
        by_cases hg : c ∈ geometryClasses
        · exact geometryClasses_repr hg hf
        · rw [ofGeometry_nil hg]; simp
      simp only [reprArg, geometry, hinfo]
      split
      · rfl
      · rw [reprAttrs_eq, reprAttrs_eq, dget_map_kv reprOf, dget_map_kv reprOf, dget_fromGeometry ho,
          rebuiltAttrs_eq, dget_map_kv rebuilt]
        cases hd : dget f.2.1 attrs with
        | none => rfl
        | some w =>
          have hm := dget_mem hd
          simp only [Option.map_some, printed_rebuilt, ih _ _ hm (hr.attr hm) (hn.attr hm)]
    have hmap := List.map_congr_left (l := reprFields c) fun f hf => congrArg (withKey f.1) (this f hf)
    rw [hmap]
    rfl

/-! ## Building again -/

theorem geometryOf_rebuilt {v : Val Cls F} (hr : AllRegular v) (hn : NoNaN v) :
    geometryOf (rebuilt v) = geometryOf v := by
  simp only [geometryOf, geometry, info_rebuilt v hr hn]

theorem putAttr_attrs {a : Str} {w : Val Cls F} {attrs : List (Str × Val Cls F)} :
    putAttr a w (rebuiltAttrs (putAttr a w attrs)) = putAttr a w (rebuiltAttrs attrs) := by
  simp only [putAttr, rebuiltAttrs_eq, List.map_map]
  apply List.map_congr_left
  rintro ⟨b, v⟩ _
  simp only [Function.comp_apply]
  by_cases h : b = a <;> simp [h]

theorem noGeometry_rebuilt (v : Val Cls F) :
    (∀ c ns nss attrs, Inside (.obj c ns nss attrs) v → c ∉ geometryClasses) → rebuilt v = v := by
  induction v using Val.deepInd with
  | hother v hv hl =>
    intro _
    cases v <;> first | exact absurd rfl (hv _ _ _ _) | exact absurd rfl (hl _) | simp only [rebuilt]
  | hlist l ih =>
    intro h
    simp only [rebuilt, rebuiltList_eq, Val.list.injEq]
    conv => rhs; rw [← List.map_id l]
    exact List.map_congr_left fun v hv => ih v hv fun c ns nss attrs hi => h c ns nss attrs (.member hv hi)
  | hobj c ns nss attrs ih =>
    intro h
    simp only [rebuilt, fromGeometry_id (h c ns nss attrs .self), rebuiltAttrs_eq, Val.obj.injEq, true_and]
    conv => rhs; rw [← List.map_id attrs]
    apply List.map_congr_left
    rintro ⟨a, v⟩ hm
    simp only [id_eq, Prod.mk.injEq, true_and]
    exact ih a v hm fun c ns nss attrs hi => h c ns nss attrs (.attr hm hi)

theorem map_rebuilt_eq {f g : Str × Val Cls F → Str × Val Cls F} {attrs : List (Str × Val Cls F)}
    (h : ∀ p ∈ attrs, f p = g p) : attrs.map f = attrs.map g := List.map_congr_left h

/-- A second round changes nothing. -/
theorem rebuilt_rebuilt (v : Val Cls F) : AllRegular v → NoNaN v → rebuilt (rebuilt v) = rebuilt v := by
  induction v using Val.deepInd with
  | hother v hv hl =>
    intro _ _
    cases v <;> first | exact absurd rfl (hv _ _ _ _) | exact absurd rfl (hl _) | simp only [rebuilt]
  | hlist l ih =>
    intro hr hn
    simp only [rebuilt, rebuiltList_eq, Val.list.injEq, List.map_map]
    exact List.map_congr_left fun v hv => ih v hv (hr.member hv) (hn.member hv)
  | hobj c ns nss attrs ih =>
    intro hr hn
    have hg := geometryOf_rebuilt hr hn
    have hk : ∀ p ∈ attrs, rebuilt (rebuilt p.2) = rebuilt p.2 := fun p hp => ih p.1 p.2 hp (hr.attr hp) (hn.attr hp)
    simp only [rebuilt] at hg ⊢
    rw [hg]
    simp only [Val.obj.injEq, true_and]
    generalize geometryOf (.obj c ns nss attrs) = g
    have hraw : rebuiltAttrs (rebuiltAttrs attrs) = rebuiltAttrs attrs := by
      simp only [rebuiltAttrs_eq, List.map_map]
      exact List.map_congr_left fun p hp => by simp only [Function.comp_apply, hk p hp]
    simp only [fromGeometry]
    split
    · rw [putAttr_attrs, hraw]
    · split
      · have : ∀ l : List (Str × Val Cls F), (∀ p ∈ l, rebuilt (rebuilt p.2) = rebuilt p.2) →
            putAttr (s% "outer_boundary") (outerArg g) (putAttr (s% "inner_boundaries") (.list (innerArg g))
              (rebuiltAttrs (putAttr (s% "outer_boundary") (outerArg g) (putAttr (s% "inner_boundaries")
                (.list (innerArg g)) (rebuiltAttrs l))))) =
            putAttr (s% "outer_boundary") (outerArg g) (putAttr (s% "inner_boundaries") (.list (innerArg g))
              (rebuiltAttrs l)) := by
          intro l hl
          simp only [putAttr, rebuiltAttrs_eq, List.map_map]
          apply List.map_congr_left
          rintro ⟨b, v⟩ hp
          have := hl _ hp
          simp only [Function.comp_apply]
          by_cases h1 : b = s% "inner_boundaries"
          · subst h1; rfl
          · by_cases h2 : b = s% "outer_boundary"
            · subst h2; rfl
            · simp only [if_neg h1, if_neg h2, this]
        exact this attrs hk
      · exact hraw

/-! ## What is read -/

theorem parse_made {ag : Str → Option (Date × Time)} {s : Str} {k : KmlDateTime} (h : KmlDateTime.parse ag s = some k) :
    TimeMade k := by
  simp only [KmlDateTime.parse] at h
  split at h
  · split at h
    · cases h
    · simp only [Option.some.injEq] at h
      exact ⟨_, _, h.symm⟩
  · split at h
    · cases h
    · simp only [Option.some.injEq] at h
      exact ⟨_, _, h.symm⟩

theorem getDts_made {ag : Str → Option (Date × Time)} {strict : Bool} {l : List Xml} {r : List (Option KmlDateTime)}
    (h : getDts ag strict l = .ok r) : ∀ w ∈ r, ∀ k, w = some k → TimeMade k := by
  induction l generalizing r with
  | nil => cases h; simp
  | cons n ns ih =>
    simp only [getDts] at h
    split at h
    · cases h
    · split at h
      · rename_i k hk
        split at h
        · cases h
        · rename_i r' hr'
          cases h
          intro w hw k' hk'
          rcases List.mem_cons.mp hw with rfl | hw
          · cases hk'; exact parse_made hk
          · exact ih hr' w hw k' hk'
      · split at h
        · cases h
        · exact ih h

/-- A value without lists in lists, and with made times. -/
def Simple (v : Val Cls F) : Prop :=
  TimesMade v ∧ ∀ l, v = .list l → ∀ u ∈ l, ∃ c ns nss as, u = .obj c ns nss as

theorem simple_of {v : Val Cls F} (h : TimesMade v) (hl : ∀ l, v ≠ .list l) : Simple v :=
  ⟨h, fun l he => absurd he (hl l)⟩

theorem getKwarg_simple {it : Item Cls} {strict : Bool} {ns : Str} {nss : NsMap} {e : Xml}
    {kids : List (Kid Cls F)} {v : Val Cls F} (h : getKwarg fastkml it strict ns nss e kids = .ok (some v))
    (hk : ∀ k ∈ kids, ∀ d ns nss w, k.read d ns nss = .ok w → ∃ c ns nss as, w = .obj c ns nss as) : Simple v := by
  have hno : ∀ {α : Type} {f : α → Val Cls F} {r : Except Err (Option α)},
      (∀ a, TimesMade (f a) ∧ ∀ l, f a ≠ .list l) → wrap f r = .ok (some v) → Simple v := by
    intro α f r hf hw
    obtain ⟨a, _, rfl⟩ := wrap_some hw
    exact simple_of (hf a).1 (hf a).2
  have hmap : ∀ {o : Option Str}, (Except.ok (o.map Val.str) : Except Err (Option (Val Cls F))) = .ok (some v) →
      Simple v := by
    intro o ho
    cases o with
    | none => cases ho
    | some s => cases ho; exact simple_of trivial (by simp)
  unfold getKwarg at h
  cases hg : it.get <;> rw [hg] at h <;> simp only at h
  case nodeText => exact hmap h
  case subText => exact hmap h
  case attrText => exact hmap h
  case subBool =>
    split at h
    · exact hno (by simp [TimesMade]) h
    · cases h
  case subInt => exact hno (by simp [TimesMade]) h
  case attrInt => exact hno (by simp [TimesMade]) h
  case subFloat => exact hno (by simp [TimesMade]) h
  case attrFloat => exact hno (by simp [TimesMade]) h
  case subEnum =>
    split at h
    · exact hno (by simp [TimesMade]) h
    · cases h
  case attrEnum =>
    split at h
    · exact hno (by simp [TimesMade]) h
    · cases h
  case subDt =>
    obtain ⟨k, hk, rfl⟩ := wrap_some h
    refine simple_of ?_ (by simp)
    obtain ⟨t, ht⟩ := getSub_some hk
    exact parse_made ht
  case subDtList =>
    obtain ⟨l, hl, rfl⟩ := wrap_some h
    refine simple_of ?_ (by simp)
    simp only [nonEmptyList] at hl
    split at hl
    · cases hl
    · cases hl
    · rename_i a l' hd
      cases hl
      exact getDts_made hd
  case coordsList => exact hno (by simp [TimesMade]) h
  case coordinates => exact hno (by simp [TimesMade]) h
  case xmlSub =>
    obtain ⟨k, hkm, d, hd, ht, hr⟩ := getXmlSub_some h
    obtain ⟨c, ns, nss, as, rfl⟩ := hk k hkm _ _ _ _ hr
    exact simple_of trivial (by simp)
  case xmlSubList =>
    split at h
    · cases h
    · rename_i vs hvs
      cases h
      refine ⟨trivial, fun l he u hu => ?_⟩
      cases he
      obtain ⟨k, hkm, d, hd, ht, hr⟩ := getXmlSubList_mem hvs _ hu
      exact hk k hkm _ _ _ _ hr

theorem tryNs_simple {it : Item Cls} {strict : Bool} {nss : NsMap} {e : Xml}
    {kids : List (Kid Cls F)} {v : Val Cls F} {ids : List Str} (h : tryNs fastkml it strict nss e kids ids = .ok (some v))
    (hk : ∀ k ∈ kids, ∀ d ns nss w, k.read d ns nss = .ok w → ∃ c ns nss as, w = .obj c ns nss as) : Simple v := by
  induction ids with
  | nil => cases h
  | cons id ids ih =>
    simp only [tryNs] at h
    split at h
    · cases h
    · rename_i w hw
      cases h
      exact getKwarg_simple hw hk
    · exact ih h

theorem normalise_keeps {n : Norm} {v w : Val Cls F} (h : normalise fastkml n v = .ok w) (hv : Simple v) :
    Simple w := by
  cases n with
  | raw => cases h; exact hv
  | clean =>
    cases v <;> simp only [normalise, Except.ok.injEq, reduceCtorEq] at h
    · subst h; exact hv
    · split at h <;> (subst h; exact simple_of trivial (by simp))
  | orEmpty =>
    cases v <;> simp only [normalise, Except.ok.injEq, reduceCtorEq] at h <;> (subst h; exact simple_of trivial (by simp))
  | orNone =>
    have h : (match truthy fastkml v with
      | .error e => .error e
      | .ok b => .ok (if b then v else .none)) = Except.ok w := h
    split at h
    · cases h
    · rename_i b _
      cases b
      · simp only [Bool.false_eq_true, if_false, Except.ok.injEq] at h
        subst h; exact simple_of trivial (by simp)
      · simp only [if_true, Except.ok.injEq] at h
        subst h; exact hv
  | listTruthy =>
    cases v <;> simp only [normalise, Except.ok.injEq, reduceCtorEq] at h
    · subst h; exact ⟨trivial, fun l he u hu => by cases he; cases hu⟩
    · split at h
      · cases h
      · rename_i l' hl'
        simp only [Except.ok.injEq] at h
        subst h
        refine ⟨trivial, fun l he u hu => ?_⟩
        cases he
        exact hv.2 _ rfl u (keepTruthy_mem hl' _ hu)
  | _ =>
    cases v <;> simp only [normalise, Except.ok.injEq, reduceCtorEq] at h <;> subst h <;>
      first | exact hv | exact ⟨trivial, fun l he u hu => by cases he; cases hu⟩ | exact ⟨trivial, fun l he => by cases he⟩

theorem zipItems2_times {cs as : List (Pt F)} {l : List (TrackItem F)} (h : zipItems2 cs as = .ok l) :
    ∀ r ∈ l, r.when_ = none := by
  induction cs generalizing as l with
  | nil =>
    cases as with
    | nil => cases h; simp
    | cons a as => cases h
  | cons c cs ih =>
    simp only [zipItems2] at h
    split at h
    · cases h
    · cases h
    · rename_i i is hi his
      cases h
      intro r hr
      rcases List.mem_cons.mp hr with rfl | hr
      · simp only [mkTrackItem] at hi
        split at hi
        · cases hi
        · split at hi
          · cases hi
          · cases hi; rfl
      · exact ih his r hr

theorem zipItems_times {ws : List (Option KmlDateTime)} {cs as : List (Pt F)} {l : List (TrackItem F)}
    (h : zipItems ws cs as = .ok l) : ∀ r ∈ l, r.when_ = none ∨ r.when_ ∈ ws := by
  induction ws generalizing cs as l with
  | nil => intro r hr; exact Or.inl (zipItems2_times h r hr)
  | cons w ws ih =>
    simp only [zipItems] at h
    split at h
    · cases h
    · cases h
    · rename_i i is hi his
      cases h
      intro r hr
      rcases List.mem_cons.mp hr with rfl | hr
      · simp only [mkTrackItem] at hi
        split at hi
        · cases hi
        · split at hi
          · cases hi
          · cases hi; simp
      · rcases ih his r hr with h | h
        · exact Or.inl h
        · exact Or.inr (by simp [h])

theorem trackItems_times {kw : List (Str × Val Cls F)} {l : List (TrackItem F)} (h : trackItems kw = .ok l)
    (hkw : ∀ a, TimesMade (kwGet a kw)) : ∀ r ∈ l, ∀ k, r.when_ = some k → TimeMade k := by
  have h1 := hkw (s% "track_items")
  have h2 := hkw (s% "whens")
  unfold trackItems at h
  generalize kwGet (s% "track_items") kw = ti at h h1
  generalize kwGet (s% "whens") kw = ws at h h2
  simp only at h
  split at h
  · rename_i til wsl csl asl hti hws _ _
    have hw : ∀ w ∈ wsl, ∀ k, w = some k → TimeMade k := by
      cases ws <;> simp only [Except.ok.injEq, reduceCtorEq] at hws
      · subst hws; simp
      · subst hws; exact h2
    have ht : ∀ r ∈ til, ∀ k, r.when_ = some k → TimeMade k := by
      cases ti <;> simp only [Except.ok.injEq, reduceCtorEq] at hti
      · subst hti; simp
      · subst hti; exact h1
    split at h
    · cases h
    · split at h
      · intro r hr k hk
        rcases zipItems_times h r hr with h | h
        · rw [h] at hk; cases hk
        · exact hw _ h k hk
      · cases h; exact ht
  · cases h

theorem construct_simple {c : Cls} {ns : Str} {nss : NsMap} {kw : List (Str × Val Cls F)} {v : Val Cls F}
    (h : construct fastkml c ns nss kw = .ok v) (hkw : ∀ p ∈ kw, Simple p.2) :
    ∃ attrs, v = .obj c ns (mergeNs nss) attrs ∧ ∀ p ∈ attrs, Simple p.2 := by
  have hget : ∀ a, Simple (kwGet a kw) := by
    intro a
    unfold kwGet
    cases hd : dget a kw with
    | none => exact simple_of trivial (by simp)
    | some w => exact hkw _ (dget_mem hd)
  obtain ⟨ex, sp, sl, hex, hsp, hsl, rfl⟩ := construct_ok h
  refine ⟨_, rfl, ?_⟩
  rintro ⟨a, w⟩ hp
  rcases List.mem_append.mp hp with hp | hp
  · rcases List.mem_append.mp hp with hp | hp
    · rw [hex] at hp
      exact hkw _ (List.mem_filter.mp hp).1
    · unfold specialInit at hsp
      split at hsp
      · split at hsp
        · cases hsp
        · split at hsp
          · cases hsp
          · cases hsp; cases hp
        · cases hsp
      · split at hsp
        · cases hsp
        · rename_i l hl
          cases hsp
          simp only [List.mem_singleton, Prod.mk.injEq] at hp
          obtain ⟨rfl, rfl⟩ := hp
          exact simple_of (trackItems_times hl fun a => (hget a).1) (by simp)
      · split at hsp
        · cases hsp
        · cases hsp; cases hp
      · cases hsp; cases hp
      · cases hsp; cases hp
  · obtain ⟨n, hn, he⟩ := fillSlots_mem hsl hp
    exact normalise_keeps he (hget a)

theorem times_inside {v : Val Cls F} (h : Everywhere (fun _ _ _ attrs => ∀ p ∈ attrs, Simple p.2) v)
    (hv : Simple v) : ∀ w, Inside w v → TimesMade w := by
  induction v using Val.deepInd with
  | hother v h1 h2 =>
    intro w hw
    cases hw with
    | self => exact hv.1
    | attr _ _ => exact absurd rfl (h1 _ _ _ _)
    | member _ _ => exact absurd rfl (h2 _)
  | hlist l ih =>
    intro w hw
    cases hw with
    | self => trivial
    | member hm hw =>
      refine ih _ hm (everywhere_member h hm) ?_ w hw
      obtain ⟨c, ns, nss, as, rfl⟩ := hv.2 l rfl _ hm
      exact simple_of trivial (by simp)
  | hobj c ns nss attrs ih =>
    intro w hw
    cases hw with
    | self => trivial
    | attr hm hw => exact ih _ _ hm (everywhere_attr h hm) (h _ _ _ _ .self _ hm) w hw

theorem parse_simple {strict : Bool} {e : Xml} {c : Cls} {ns : Str} {nss : NsMap} {v : Val Cls F}
    (h : parse fastkml strict e c ns nss = .ok v) :
    Everywhere (fun c ns nss attrs => (∀ p ∈ attrs, Simple p.2) ∧
      ∃ ns0 nss0 kw, init fastkml c ns0 nss0 kw = .ok (.obj c ns nss attrs)) v := by
  have key : ∀ {e : Xml} {c : Cls} {ns : Str} {nss : NsMap} {as : List (Str × Val Cls F)} {ns' : Str} {nss' : NsMap},
      parse fastkml strict e c ns nss = .ok (.obj c ns' nss' as) → (∀ p ∈ as, Simple p.2) ∧
        ∃ ns0 nss0 kw, init fastkml c ns0 nss0 kw = .ok (.obj c ns' nss' as) := by
    intro e c ns nss as ns' nss' h
    rw [parse_eq] at h
    simp only [parseStep] at h
    split at h
    · cases h
    · rename_i kw hkw
      obtain ⟨attrs, he, ha⟩ := construct_simple h (by
        rintro ⟨a, w⟩ hp
        rcases getKwargs_mem hkw hp with hb | ⟨it, hit, _, hb⟩
        · cases hb
        · refine tryNs_simple hb ?_
          intro k hk d ns nss w hr
          simp only [kidsOf, List.mem_map] at hk
          obtain ⟨k', _, rfl⟩ := hk
          obtain ⟨_, as, rfl⟩ := parse_typed fastkml_readOk hr
          exact ⟨_, _, _, _, rfl⟩)
      cases he
      exact ⟨ha, some _, _, kw, h⟩
  intro c' ns' nss' as hi
  rcases parse_inside e h hi with heq | ⟨k, hk, d, hkd, _, _, hp⟩
  · obtain ⟨_, as', hv⟩ := parse_typed fastkml_readOk h
    rw [hv] at heq
    cases heq
    exact key (hv ▸ h)
  · exact key hp

theorem classes_concrete {c : Cls} {it : Item Cls} (hit : it ∈ fastkml.itemsOf c) {d : Cls} (hd : .cls d ∈ it.classes) :
    d ∉ abstractClasses := by
  have : ∀ c ∈ Cls.all, ∀ it ∈ fastkml.itemsOf c, ∀ t ∈ it.classes, ∀ d ∈ abstractClasses, t ≠ .cls d := by
    decide +kernel
  intro hm
  exact this c (Cls.mem_all c) it hit _ hd d hm rfl

theorem parse_concrete {strict : Bool} {e : Xml} {c : Cls} {ns : Str} {nss : NsMap} {v : Val Cls F}
    (h : parse fastkml strict e c ns nss = .ok v) (hc : c ∉ abstractClasses) :
    Everywhere (fun c _ _ _ => c ∉ abstractClasses) v := by
  intro c' ns' nss' as hi
  rcases parse_inside e h hi with heq | ⟨k, hk, d, hkd, _, ⟨c0, it, hit, hd, _⟩, hp⟩
  · obtain ⟨_, as', hv⟩ := parse_typed fastkml_readOk h
    rw [hv] at heq
    cases heq
    exact hc
  · exact classes_concrete hit hd

end Verif
