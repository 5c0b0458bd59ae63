import Verif.Lemmas.Eq
import Verif.Lemmas.ReadTyped

/-!
# Equality is total, symmetric and reflexive
-/

set_option linter.unusedSectionVars false
set_option linter.unusedSimpArgs false

namespace Verif
open Spec

variable {F : Type} [PyExt F] [PyClose F]

/-! ## Typing -/

theorem typed_of_everywhere {P : Pt F → Bool} (v : Val Cls F) :
    Everywhere (fun c _ _ attrs => objOk fastkml P c attrs = true) v → typed fastkml P v = true := by
  induction v using Val.objInd with
  | hother v hv =>
    intro _
    cases v <;> first | exact absurd rfl (hv _ _ _ _) | simp [typed]
  | hobj c ns nss attrs ih1 ih2 =>
    intro h
    have ho := h c ns nss attrs .self
    simp only [objOk, Bool.and_eq_true, List.all_eq_true, Bool.or_eq_true, decide_eq_true_eq] at ho
    refine typed_obj.mpr ⟨ho.1, fun hs => ?_, fun a v hm => ?_, fun a l hm w hw => ?_⟩
    · rcases ho.2 with h | h
      · exact absurd hs h
      · exact h
    · exact ih1 a v hm (everywhere_attr h hm)
    · exact ih2 a l hm w hw (everywhere_member (everywhere_attr h hm) hw)

theorem Spec.AllRegular.typed {v : Val Cls F} (h : AllRegular v) : typed fastkml dim23 v = true :=
  typed_of_everywhere v fun c ns nss attrs hi => (h c ns nss attrs hi).typed

theorem Spec.AllRegular.attr {c : Cls} {ns : Str} {nss : NsMap} {attrs : List (Str × Val Cls F)}
    (h : AllRegular (.obj c ns nss attrs)) {a : Str} {v : Val Cls F} (hm : (a, v) ∈ attrs) : AllRegular v :=
  everywhere_attr h hm

theorem Spec.AllRegular.member {l : List (Val Cls F)} (h : AllRegular (.list l)) {v : Val Cls F} (hm : v ∈ l) :
    AllRegular v := everywhere_member h hm

theorem geometry_total {x : Inst F} (h : AllRegular x.val) {e : Cls} {as : List Str}
    (hr : eqRule x.c = .fields e as) : ∃ g, geometry fastkml x.val = .ok g := by
  cases hg : geometry fastkml x.val with
  | ok g => exact ⟨g, rfl⟩
  | error e =>
    obtain ⟨_, h2, h3, _⟩ := rule_facts hr
    rcases (infoOk fastkml_boolOk (T := TypeErr (F := F) dim23) (fun l hl h => ⟨l, hl, h⟩) _ h.typed).geom
      x.c x.ns x.nss x.attrs rfl h2 e hg with h | h
    · exact absurd h.2 not_typeErr_dim23
    · rw [h3] at h; cases h.2

/-! ## Totality -/

theorem methodEq_ok {E : Val Cls F → Val Cls F → Except Err Bool} {x y : Inst F}
    (hx : AllRegular x.val) (hy : AllRegular y.val)
    (h : ∀ a v b w, (a, v) ∈ x.attrs → (b, w) ∈ y.attrs → ∃ r, E v w = .ok r) : ∃ r, methodEq E x y = .ok r := by
  have hrx : x.Reg := hx _ _ _ _ .self
  have hry : y.Reg := hy _ _ _ _ .self
  have hd : ∃ r, (if x.c = y.c then dictEq E x y else .ok false) = .ok r := by
    by_cases hc : x.c = y.c
    · rw [if_pos hc]; exact dictEq_ok h
    · rw [if_neg hc]; exact ⟨_, rfl⟩
  simp only [methodEq]
  cases hr : eqRule x.c with
  | default => exact hd
  | fields e as =>
    simp only
    by_cases he : e ∈ (fastkml.info y.c).mro
    · rw [if_pos he]
      obtain ⟨hm, _, _, hn⟩ := rule_facts hr
      have hat : ∀ a ∈ as ++ [s% "id", s% "target_id"], ∃ r, attrEq E x y a = .ok r := by
        intro a ha
        rw [attrEq_reg E hrx hry (hn _ hm a ha) (hn _ he a ha)]
        exact h _ _ _ _ (hrx.mem (hn _ hm a ha)) (hry.mem (hn _ he a ha))
      obtain ⟨g, hg⟩ := geometry_total hx hr
      obtain ⟨k, hk⟩ := geometry_total hy (rule_inst hr he)
      apply allE_ok
      intro r hr
      simp only [hrx.splat, List.map_nil, List.append_nil, List.mem_append, List.mem_map, List.mem_cons,
        List.not_mem_nil, or_false] at hr hat
      rcases hr with ⟨a, ha, rfl⟩ | rfl | rfl | rfl | rfl | rfl
      · exact hat a (Or.inl ha)
      · exact ⟨optGeoEq g k, by simp only [geometryEq, hg, hk]⟩
      · exact ⟨_, rfl⟩
      · exact ⟨_, rfl⟩
      · exact hat _ (Or.inr (Or.inl rfl))
      · exact hat _ (Or.inr (Or.inr rfl))
    · rw [if_neg he]; exact hd

theorem pyEq_total (a b : Val Cls F) : AllRegular a → AllRegular b → ∃ r, pyEq a b = .ok r := by
  induction a, b using pair_ind with
  | h a b ih =>
    intro ha hb
    rw [pyEq_eq]
    cases a <;> cases b <;> try exact ⟨_, rfl⟩
    case list.list l m =>
      simp only [eqStep, listEq]
      by_cases hl : l.length ≠ m.length
      · rw [if_pos hl]; exact ⟨_, rfl⟩
      · rw [if_neg hl]
        apply allE_ok
        intro r hr
        obtain ⟨⟨v, w⟩, hp, rfl⟩ := List.mem_map.mp hr
        have h1 := (List.of_mem_zip hp).1
        have h2 := (List.of_mem_zip hp).2
        have d1 := depthList_mem h1
        have d2 := depthList_mem h2
        exact ih v w (by simp only [Val.depth]; omega) (ha.member h1) (hb.member h2)
    case obj.obj c ns nss as d ns' nss' bs =>
      have key : ∀ v w : Val Cls F, ∀ a b, (a, v) ∈ as → (b, w) ∈ bs →
          v.depth + w.depth < (Val.obj c ns nss as).depth + (Val.obj d ns' nss' bs).depth := by
        intro v w a b hv hw
        have d1 := depthAttrs_mem hv
        have d2 := depthAttrs_mem hw
        simp only [Val.depth]; omega
      simp only [eqStep, instEq]
      split
      · refine methodEq_ok (x := ⟨d, ns', nss', bs⟩) (y := ⟨c, ns, nss, as⟩) hb ha fun a v b w hv hw => ?_
        exact ih v w (by rw [Nat.add_comm]; exact key w v b a hw hv) (hb.attr hv) (ha.attr hw)
      · refine methodEq_ok (x := ⟨c, ns, nss, as⟩) (y := ⟨d, ns', nss', bs⟩) ha hb fun a v b w hv hw => ?_
        exact ih v w (key v w a b hv hw) (ha.attr hv) (hb.attr hw)

/-! ## Symmetry -/

section
variable [LawfulExt F] [LawfulClose F]

theorem Spec.SameMap.symm {n m : NsMap} (h : SameMap n m) : SameMap m n := fun k => (h k).symm

theorem methodEq_symm {E : Val Cls F → Val Cls F → Except Err Bool} {x y : Inst F} (hx : x.Reg) (hy : y.Reg)
    (hc : x.c = y.c)
    (h : ∀ a v b w, (a, v) ∈ x.attrs → (b, w) ∈ y.attrs → E v w = .ok true → E w v = .ok true)
    (he : methodEq E x y = .ok true) : methodEq E y x = .ok true := by
  cases hr : eqRule x.c with
  | default =>
    have hr' : eqRule y.c = .default := hc ▸ hr
    simp only [methodEq, hr, if_pos hc] at he
    simp only [methodEq, hr', if_pos hc.symm]
    rw [dictEq_reg E hx hy hc] at he
    rw [dictEq_reg E hy hx hc.symm]
    exact ⟨he.1.symm, he.2.1.symm, fun a ha => h _ _ _ _ (hx.mem (hc ▸ ha)) (hy.mem ha) (he.2.2 a (hc ▸ ha))⟩
  | fields e as =>
    have hr' : eqRule y.c = .fields e as := hc ▸ hr
    obtain ⟨hm, _, _, hn⟩ := rule_facts hr
    obtain ⟨hm', _, _, _⟩ := rule_facts hr'
    rw [fields_reg E hx hy hr hm'] at he
    rw [fields_reg E hy hx hr' hm]
    obtain ⟨h1, h2, h3, h4⟩ := he
    exact ⟨fun a ha => h _ _ _ _ (hx.mem (hn _ hm a ha)) (hy.mem (hn _ hm' a ha)) (h1 a ha),
      geometryEq_symm h2, h3.symm, h4.symm⟩

theorem methodEq_unrelated {E : Val Cls F → Val Cls F → Except Err Bool} {x y : Inst F} (hc : x.c ≠ y.c)
    (h1 : x.c ∉ (fastkml.info y.c).mro) (h2 : y.c ∉ (fastkml.info x.c).mro) : methodEq E x y = .ok false := by
  simp only [methodEq]
  cases hr : eqRule x.c with
  | default => simp [hc]
  | fields e as =>
    simp only
    by_cases he : e ∈ (fastkml.info y.c).mro
    · rcases rule_related hr he with h | h | h
      · exact absurd h hc
      · exact absurd h h1
      · exact absurd h h2
    · simp [he, hc]

theorem instEq_symm {E : Val Cls F → Val Cls F → Except Err Bool} {x y : Inst F} (hx : x.Reg) (hy : y.Reg)
    (h : ∀ a v b w, (a, v) ∈ x.attrs → (b, w) ∈ y.attrs → E v w = .ok true → E w v = .ok true)
    (he : instEq E x y = .ok true) : instEq E y x = .ok true := by
  by_cases hc : x.c = y.c
  · simp only [instEq, hc, ne_eq, not_true_eq_false, false_and, if_false] at he ⊢
    exact methodEq_symm hx hy hc h he
  · have hc' : ¬ y.c = x.c := fun e => hc e.symm
    by_cases h1 : x.c ∈ (fastkml.info y.c).mro
    · have h2 : y.c ∉ (fastkml.info x.c).mro := fun h2 => hc (mro_antisymm h1 h2)
      simp only [instEq, ne_eq, hc, hc', h1, h2, not_false_eq_true, and_true, and_false, if_true, if_false] at he ⊢
      exact he
    · by_cases h2 : y.c ∈ (fastkml.info x.c).mro
      · simp only [instEq, ne_eq, hc, hc', h1, h2, not_false_eq_true, and_true, and_false, if_true, if_false] at he ⊢
        exact he
      · simp only [instEq, ne_eq, hc, hc', h1, h2, not_false_eq_true, and_true, and_false, if_true, if_false] at he ⊢
        rw [methodEq_unrelated hc h1 h2] at he
        cases he

theorem momentEq_symm (a b : Moment) : a.eq b = b.eq a := by
  cases a <;> cases b <;> simp only [Moment.eq]
  · exact decide_eq_decide.mpr eq_comm
  · rename_i d t e s
    cases t.off <;> cases s.off <;> simp only
    · exact congr (congrArg and (decide_eq_decide.mpr eq_comm)) (decide_eq_decide.mpr eq_comm)
    · exact decide_eq_decide.mpr eq_comm

theorem kdtEq_symm (a b : KmlDateTime) : a.eq b = b.eq a := by
  simp only [KmlDateTime.eq, momentEq_symm a.dt]
  exact congrArg _ (decide_eq_decide.mpr eq_comm)

theorem ptBeq_eqAll (p q : Pt F) : ptBeq p q = eqAll PyExt.beq p q := by
  induction p generalizing q with
  | nil => cases q <;> rfl
  | cons a p ih => cases q <;> simp only [ptBeq, eqAll, ih]

theorem ptBeq_symm (p q : Pt F) : ptBeq p q = ptBeq q p := by
  rw [ptBeq_eqAll, ptBeq_eqAll]; exact eqAll_symm LawfulExt.beq_symm p q

theorem numEq_symm (x y : Int ⊕ F) : numEq x y = numEq y x := by
  cases x <;> cases y <;> simp only [numEq]
  · exact decide_eq_decide.mpr eq_comm
  · exact LawfulExt.beq_symm _ _
  · exact LawfulExt.beq_symm _ _
  · exact LawfulExt.beq_symm _ _

theorem whenEq_symm (a b : Option KmlDateTime) : whenEq a b = whenEq b a := by
  cases a <;> cases b <;> simp only [whenEq]
  exact kdtEq_symm _ _

theorem angleEq_symm (a b : Option (F × F × F)) : angleEq a b = angleEq b a := by
  cases a <;> cases b <;> simp only [angleEq]
  rename_i a b
  rw [LawfulExt.beq_symm a.1, LawfulExt.beq_symm a.2.1, LawfulExt.beq_symm a.2.2]

theorem rowEq_symm (r s : TrackItem F) : rowEq r s = rowEq s r := by
  simp only [rowEq, whenEq_symm r.when_, geoEq_symm (.point r.coord), angleEq_symm r.angle]

theorem plainEq_symm (a b : Val Cls F) : plainEq a b = plainEq b a := by
  simp only [plainEq]
  cases ha : a.num with
  | some x =>
    cases hb : b.num with
    | some y => exact numEq_symm x y
    | none => rfl
  | none =>
    cases hb : b.num with
    | some y => rfl
    | none =>
      cases a <;> cases b <;> simp only [] <;> first
        | rfl
        | exact decide_eq_decide.mpr eq_comm
        | exact kdtEq_symm _ _
        | exact eqAll_symm LawfulExt.beq_symm _ _
        | exact eqAll_symm ptBeq_symm _ _
        | exact eqAll_symm whenEq_symm _ _
        | exact eqAll_symm rowEq_symm _ _
        | exact congr (congrArg and (decide_eq_decide.mpr eq_comm)) (decide_eq_decide.mpr eq_comm)

theorem pyEq_plain {a b : Val Cls F}
    (h : ∀ c ns nss as, a ≠ .obj c ns nss as) (h' : ∀ l, a ≠ .list l) : pyEq a b = .ok (plainEq a b) := by
  rw [pyEq_eq]
  cases a <;> first | rfl | exact absurd rfl (h _ _ _ _) | exact absurd rfl (h' _)

theorem mem_zip_swap {α β : Type} {a : α} {b : β} : ∀ {l : List α} {m : List β},
    (b, a) ∈ m.zip l → (a, b) ∈ l.zip m
  | [], m, h => by cases m <;> simp at h
  | _ :: _, [], h => by simp at h
  | c :: l, d :: m, h => by
    simp only [List.zip_cons_cons, List.mem_cons, Prod.mk.injEq] at h ⊢
    rcases h with ⟨h1, h2⟩ | h
    · exact Or.inl ⟨h2, h1⟩
    · exact Or.inr (mem_zip_swap h)

theorem pyEq_symm (a b : Val Cls F) : AllRegular a → AllRegular b →
    pyEq a b = .ok true → pyEq b a = .ok true := by
  induction a, b using pair_ind with
  | h a b ih =>
    intro ha hb
    rw [pyEq_eq, pyEq_eq]
    by_cases ho : ∃ c ns nss as d ns' nss' bs, a = .obj c ns nss as ∧ b = .obj d ns' nss' bs
    · obtain ⟨c, ns, nss, as, d, ns', nss', bs, rfl, rfl⟩ := ho
      simp only [eqStep]
      refine instEq_symm (x := ⟨c, ns, nss, as⟩) (y := ⟨d, ns', nss', bs⟩) (ha _ _ _ _ .self) (hb _ _ _ _ .self)
        fun a v b w hv hw => ?_
      have d1 : v.depth ≤ Val.depthAttrs as := depthAttrs_mem hv
      have d2 : w.depth ≤ Val.depthAttrs bs := depthAttrs_mem hw
      exact ih v w (by simp only [Val.depth]; omega) (ha.attr hv) (hb.attr hw)
    · by_cases hl : ∃ l m, a = .list l ∧ b = .list m
      · obtain ⟨l, m, rfl, rfl⟩ := hl
        simp only [eqStep, listEq]
        by_cases hlen : l.length = m.length
        · simp only [hlen, ne_eq, not_true_eq_false, if_false, allE_true]
          intro h r hr
          obtain ⟨⟨w, v⟩, hp, rfl⟩ := List.mem_map.mp hr
          have hp' := mem_zip_swap hp
          have h1 := (List.of_mem_zip hp').1
          have h2 := (List.of_mem_zip hp').2
          have d1 := depthList_mem h1
          have d2 := depthList_mem h2
          exact ih v w (by simp only [Val.depth]; omega) (ha.member h1) (hb.member h2)
            (h _ (List.mem_map.mpr ⟨(v, w), hp', rfl⟩))
        · simp [hlen]
      · have : ∀ a b : Val Cls F, (¬ ∃ c ns nss as d ns' nss' bs, a = .obj c ns nss as ∧ b = .obj d ns' nss' bs) →
            (¬ ∃ l m, a = .list l ∧ b = .list m) → eqStep pyEq a b = .ok (plainEq a b) := by
          intro a b h1 h2
          cases a <;> cases b <;> first | rfl | exact absurd ⟨_, _, _, _, _, _, _, _, rfl, rfl⟩ h1 | exact absurd ⟨_, _, rfl, rfl⟩ h2
        rw [this a b ho hl, this b a (fun ⟨c, ns, nss, as, d, ns', nss', bs, h1, h2⟩ => ho ⟨_, _, _, _, _, _, _, _, h2, h1⟩)
          (fun ⟨l, m, h1, h2⟩ => hl ⟨_, _, h2, h1⟩), plainEq_symm]
        exact id

theorem pyEq_comm {a b : Val Cls F} (ha : AllRegular a) (hb : AllRegular b) : pyEq a b = pyEq b a := by
  obtain ⟨r, hr⟩ := pyEq_total a b ha hb
  obtain ⟨s, hs⟩ := pyEq_total b a hb ha
  cases r with
  | true => rw [hr, pyEq_symm a b ha hb hr]
  | false =>
    cases s with
    | true => rw [pyEq_symm b a hb ha hs] at hr; cases hr
    | false => rw [hr, hs]

/-! ## Reflexivity -/

/-- A coordinate without NaN. -/
def FinePt (p : Pt F) : Prop := ∀ f ∈ p, PyExt.isNaN f = false

/-- A line without NaN. -/
def FineLine (l : List (Pt F)) : Prop := ∀ p ∈ l, FinePt p

/-- A geometry that equals itself. -/
def Fine : Geo F → Prop
  | .point p => FinePt p
  | .lineString l => l ≠ [] ∧ FineLine l
  | .linearRing l => l ≠ [] ∧ FineLine l
  | .polygon s hs => (s ≠ [] ∧ FineLine s) ∧ ∀ h ∈ hs, FineLine h
  | _ => False

theorem ptClose_refl {p : Pt F} (h : FinePt p) : ptClose p p = true :=
  eqAll_refl fun f hf => LawfulClose.close_refl f (h f hf)

theorem ptEmpty_fine {p : Pt F} (h : FinePt p) : ptEmpty p = false := by
  simp only [ptEmpty, List.any_eq_false]
  intro f hf; simp [h f hf]

theorem geoEq_refl {g : Geo F} (h : Fine g) : geoEq g g = true := by
  have hl : ∀ l : List (Pt F), FineLine l → eqAll ptClose l l = true := fun l h =>
    eqAll_refl fun p hp => ptClose_refl (h p hp)
  cases g with
  | point p => simp [geoEq, Geo.nonEmpty, ptEmpty_fine h, ptClose_refl h]
  | lineString l => simp [geoEq, Geo.nonEmpty, hl l h.2, h.1]
  | linearRing l => simp [geoEq, Geo.nonEmpty, hl l h.2, h.1]
  | polygon s hs =>
    simp [geoEq, Geo.nonEmpty, hl s h.1.2, h.1.1, eqAll_refl (l := hs) fun l hm => hl l (h.2 l hm)]
  | _ => exact h.elim

theorem setGeoms_fine {l r : List (Pt F)} : ∀ {last : Option Nat}, setGeoms last l = .ok r → FineLine l → r = l := by
  induction l generalizing r with
  | nil => intro last h _; simp [setGeoms] at h; exact h
  | cons p l ih =>
    intro last h hf
    simp only [setGeoms] at h
    split at h
    · cases h
    · split at h
      · cases h
      · rename_i q hq
        split at h
        · cases h
        · rename_i r' hr'
          have hqp : q = p := by
            simp only [mkPoint] at hq
            split at hq
            · simpa using hq.symm
            · cases hq
          subst hqp
          have := ih hr' fun p hp => hf p (by simp [hp])
          subst this
          simp only [ptEmpty_fine (hf q (by simp)), Bool.false_eq_true, if_false, Except.ok.injEq] at h
          exact h.symm

theorem dedupe_ne {l : List (Pt F)} (h : l ≠ []) : dedupe l ≠ [] := by
  cases l with
  | nil => exact absurd rfl h
  | cons p r => simp [dedupe]

theorem mkLine_fine {l r : List (Pt F)} (h : mkLine l = .ok r) (hl : l ≠ []) (hf : FineLine l) :
    r ≠ [] ∧ FineLine r := by
  have hd : FineLine (dedupe l) := fun p hp => hf p (mem_dedupe hp)
  rw [setGeoms_fine h hd]
  exact ⟨dedupe_ne hl, hd⟩

theorem mkRing_fine {l r : List (Pt F)} (h : mkRing l = .ok r) (hl : l ≠ []) (hf : FineLine l) :
    r ≠ [] ∧ FineLine r := by
  simp only [mkRing] at h
  split at h
  · cases h
  · rename_i m hm
    obtain ⟨h1, h2⟩ := mkLine_fine hm hl hf
    simp only [Except.ok.injEq] at h
    subst h
    cases m with
    | nil => exact absurd rfl h1
    | cons p m =>
      simp only [closeRing]
      split
      · exact ⟨h1, h2⟩
      · split
        · exact ⟨h1, h2⟩
        · refine ⟨by simp, fun q hq => ?_⟩
          simp only [List.cons_append, List.mem_cons, List.mem_append, List.not_mem_nil, or_false] at hq
          rcases hq with rfl | hq | rfl
          · exact h2 _ (by simp)
          · exact h2 _ (by simp [hq])
          · exact h2 _ (by simp)

theorem ringsOf_mem {gs : List (Geo F)} : ∀ {rs : List (List (Pt F))}, ringsOf gs = .ok rs →
    ∀ r ∈ rs, ∃ l, .linearRing l ∈ gs ∧ mkRing l = .ok r := by
  induction gs with
  | nil => intro rs h; simp [ringsOf] at h; subst h; simp
  | cons g gs ih =>
    intro rs h r hr
    cases g <;> simp only [ringsOf] at h <;> try cases h
    rename_i l
    split at h
    · cases h
    · cases h
    · rename_i r' rs' h1 h2
      simp only [Except.ok.injEq] at h
      subst h
      rcases List.mem_cons.mp hr with rfl | hr
      · refine ⟨l, by simp, ?_⟩
        cases hm : mkRing l with
        | ok k => rw [hm] at h1; simpa [liftGeo] using h1
        | error e => rw [hm] at h1; cases e <;> simp [liftGeo] at h1
      · obtain ⟨l', hl', hk⟩ := ih h2 r hr
        exact ⟨l', by simp [hl'], hk⟩

theorem Spec.NoNaN.attr {c : Cls} {ns : Str} {nss : NsMap} {attrs : List (Str × Val Cls F)}
    (h : NoNaN (.obj c ns nss attrs)) {a : Str} {v : Val Cls F} (hm : (a, v) ∈ attrs) : NoNaN v :=
  fun w hw => h w (.attr hm hw)

theorem Spec.NoNaN.member {l : List (Val Cls F)} (h : NoNaN (.list l)) {v : Val Cls F} (hm : v ∈ l) : NoNaN v :=
  fun w hw => h w (.member hm hw)

theorem coordsOf_fine {v : Val Cls F} (hn : NoNaN v) {l : List (Pt F)} (h : coordsOf v = .ok l) : FineLine l := by
  cases v <;> simp only [coordsOf] at h <;> try cases h
  rename_i c ns nss attrs
  split at h
  · rename_i l' hl
    simp only [Except.ok.injEq] at h
    subst h
    exact hn (.coords l') (.attr (dget_mem hl) .self)
  · cases h

theorem truthy_coords {c : Cls} {ns : Str} {nss : NsMap} {attrs : List (Str × Val Cls F)} {l : List (Pt F)}
    (hc : coordsOf (.obj c ns nss attrs : Val Cls F) = .ok l) (hb : coordsCls fastkml c = true)
    (h : (info fastkml (.obj c ns nss attrs)).truthy = .ok true) : l ≠ [] := by
  have hcls : ∀ c ∈ Cls.all, coordsCls fastkml c = true →
      (fastkml.info c).bool = .allTruthy [s% "coords"] := by decide +kernel
  have hr := hcls c (Cls.mem_all c) hb
  simp only [coordsOf] at hc
  split at hc
  · rename_i l' hl
    simp only [Except.ok.injEq] at hc
    subst hc
    rintro rfl
    simp only [info, infoStep, hr, boolStep, viewOf_infoAttrs, attrOf, hl, List.map_cons, List.map_nil,
      Option.getD_some, Info.plain, List.isEmpty_nil, Bool.not_true, allE] at h
    cases h
  · cases hc

/-- The geometries of typed objects without NaN equal themselves. -/
theorem geometry_fine (v : Val Cls F) : typed fastkml dim23 v = true → NoNaN v →
    ∀ c ns nss attrs, v = .obj c ns nss attrs → (fastkml.info c).geom ≠ .none →
    (fastkml.info c).geom ≠ .multi → flat (fastkml.info c).geom = true →
    ∀ g, geometry fastkml v = .ok (some g) →
      Fine g ∧ ((fastkml.info c).geom = .boundary → ∃ l, g = .linearRing l) ∧
        ((fastkml.info c).geom = .linearRing → ∃ l, g = .linearRing l) := by
  induction v using Val.objInd with
  | hother v hv => intro _ _ c ns nss attrs h; exact absurd h (hv _ _ _ _)
  | hobj c ns nss attrs ih1 ih2 =>
    intro ht hn c' ns' nss' attrs' he hne hnm hf g hg
    cases he
    have hb := fastkml_boolOk c
    simp only [boolOk, Bool.and_eq_true] at hb
    have hgo := hb.1
    have hcoords : hasItem fastkml c (s% "kml_coordinates") .xmlSub (coordsCls fastkml) = true →
        (viewOf (s% "kml_coordinates") (infoAttrs fastkml attrs)).info.truthy = .ok true →
        ∀ l, coordsOf (viewOf (s% "kml_coordinates") (infoAttrs fastkml attrs)).v = .ok l →
          l ≠ [] ∧ FineLine l := by
      intro h htr l hl
      rw [viewOf_infoAttrs] at htr hl
      rcases sub_cases ht h with hno | ⟨d, ns', nss', as, hv, hd⟩
      · rw [hno] at htr; simp [info, Info.plain] at htr
      · have hnv : NoNaN (attrOf (s% "kml_coordinates") attrs) := hn.attr (attrOf_mem rfl (by rw [hv]; simp))
        rw [hv] at htr hl hnv
        exact ⟨truthy_coords hl hd htr, coordsOf_fine hnv hl⟩
    rw [geometry_obj] at hg
    cases hk : (fastkml.info c).geom <;> rw [hk] at hg hne hnm hf <;> simp only [geomOk, hk] at hgo <;>
      simp only [geomStep] at hg <;> try (simp [flat] at hf; done)
    case multi => exact absurd rfl hnm
    case point =>
      refine ⟨?_, (fun h => by cases h), (fun h => by cases h)⟩
      split at hg
      · cases hg
      · cases hg
      · rename_i htr
        split at hg
        · cases hg
        · rename_i l hl
          obtain ⟨h1, h2⟩ := hcoords hgo htr l hl
          cases l with
          | nil => exact absurd rfl h1
          | cons p r =>
            simp only [pointGeom, mkPoint] at hg
            split at hg
            · simp only [Except.ok.injEq, Option.some.injEq] at hg
              rename_i hp
              split at hp
              · simp only [Except.ok.injEq] at hp; subst hp; subst hg
                exact h2 _ (by simp)
              · cases hp
            · cases hg
    case lineString =>
      refine ⟨?_, (fun h => by cases h), (fun h => by cases h)⟩
      split at hg
      · cases hg
      · cases hg
      · rename_i htr
        split at hg
        · cases hg
        · rename_i l hl
          obtain ⟨h1, h2⟩ := hcoords hgo htr l hl
          cases hm : mkLine l with
          | error e => rw [hm] at hg; cases e <;> simp [catchDim] at hg
          | ok r =>
            rw [hm] at hg
            simp only [catchDim, Option.map_some, Except.ok.injEq, Option.some.injEq] at hg
            subst hg
            exact mkLine_fine hm h1 h2
    case linearRing =>
      split at hg
      · cases hg
      · cases hg
      · rename_i htr
        split at hg
        · cases hg
        · rename_i l hl
          obtain ⟨h1, h2⟩ := hcoords hgo htr l hl
          cases hm : mkRing l with
          | error e => rw [hm] at hg; cases e <;> simp [catchDim] at hg
          | ok r =>
            rw [hm] at hg
            simp only [catchDim, Option.map_some, Except.ok.injEq, Option.some.injEq] at hg
            subst hg
            exact ⟨mkRing_fine hm h1 h2, fun _ => ⟨_, rfl⟩, fun _ => ⟨_, rfl⟩⟩
    case boundary =>
      split at hg
      · cases hg
      · cases hg
      · rename_i htr
        rw [viewOf_infoAttrs] at htr hg
        rcases sub_cases ht hgo with hno | ⟨d, ns', nss', as, hv, hd⟩
        · rw [hno] at htr; simp [info, Info.plain] at htr
        · simp only [decide_eq_true_eq] at hd
          have hm := attrOf_mem hv (by simp)
          have := ih1 _ _ hm ((typed_obj.mp ht).2.2.1 _ _ hm) (hn.attr hm) d ns' nss' as rfl
            (by rw [hd]; simp) (by rw [hd]; simp) (by rw [hd]; rfl) g (by rw [hv] at hg; exact hg)
          exact ⟨this.1, fun _ => this.2.2 hd, fun h => by cases h⟩
    case polygon =>
      refine ⟨?_, (fun h => by cases h), (fun h => by cases h)⟩
      rw [Bool.and_eq_true] at hgo
      split at hg
      · cases hg
      · cases hg
      · rename_i htr
        split at hg
        · cases hg
        · rename_i l hl
          split at hg
          · cases hg
          · cases hg
          · rename_i shell gs hsh hgs
            split at hg
            · cases hg
            · rename_i holes hho
              simp only [Except.ok.injEq, Option.some.injEq] at hg
              subst hg
              rw [viewOf_infoAttrs] at hl htr
              have hring : ∀ {l r : List (Pt F)}, liftGeo (mkRing l) = .ok r → mkRing l = .ok r := by
                intro l r h
                cases hm : mkRing l with
                | ok k => rw [hm] at h; simpa [liftGeo] using h
                | error e => rw [hm] at h; cases e <;> simp [liftGeo] at h
              constructor
              · rcases sub_cases ht hgo.1 with hno | ⟨d, ns', nss', as, hv, hd⟩
                · rw [hno] at htr; simp [info, Info.plain] at htr
                · simp only [Bool.and_eq_true, decide_eq_true_eq] at hd
                  have hm := attrOf_mem hv (by simp)
                  have := ih1 _ _ hm ((typed_obj.mp ht).2.2.1 _ _ hm) (hn.attr hm) d ns' nss' as rfl
                    (by rw [hd.1]; simp) (by rw [hd.1]; simp) (by rw [hd.1]; rfl) _ (by rw [hv] at hl; exact hl)
                  exact mkRing_fine (hring hsh) this.1.1 this.1.2
              · intro h hh
                obtain ⟨m, hm, hr⟩ := ringsOf_mem hho h hh
                obtain ⟨i, hi, he⟩ := someGeoms_mem hgs _ hm
                rw [viewOf_infoAttrs] at hi
                obtain ⟨ls, hls, hw⟩ := list_cases ht hgo.2
                rw [hls, infoElems_list, List.mem_map] at hi
                obtain ⟨w, hwl, rfl⟩ := hi
                obtain ⟨d, ns', nss', as, hv, hd⟩ := hw w hwl
                simp only [decide_eq_true_eq] at hd
                have hma := attrOf_mem hls (by simp)
                have := ih2 _ ls hma w hwl (typed_member ht hls hwl) ((hn.attr hma).member hwl) d ns' nss' as hv
                  (by rw [hd]; simp) (by rw [hd]; simp) (by rw [hd]; rfl) _ he
                exact (mkRing_fine hr this.1.1 this.1.2).2
        · cases hg

theorem momentEq_refl (a : Moment) : a.eq a = true := by
  cases a with
  | date d => simp [Moment.eq]
  | dt d t => simp only [Moment.eq]; cases t.off <;> simp

theorem kdtEq_refl (a : KmlDateTime) : a.eq a = true := by simp [KmlDateTime.eq, momentEq_refl]

theorem beq_refl_fine {f : F} (h : PyExt.isNaN f = false) : PyExt.beq f f = true := by
  rw [LawfulExt.beq_refl, h]; rfl

theorem plainEq_refl {v : Val Cls F} (h : Numeric v) (h1 : ∀ c ns nss as, v ≠ .obj c ns nss as)
    (h2 : ∀ l, v ≠ .list l) : plainEq v v = true := by
  cases v <;> simp only [plainEq, Val.num, numEq]
  case obj => exact absurd rfl (h1 _ _ _ _)
  case list => exact absurd rfl (h2 _)
  case float f => exact beq_refl_fine h
  case dt k => exact kdtEq_refl k
  case floats l => exact eqAll_refl fun f hf => beq_refl_fine (h f hf)
  case coords l =>
    refine eqAll_refl fun p hp => ?_
    rw [ptBeq_eqAll]
    exact eqAll_refl fun f hf => beq_refl_fine (h p hp f hf)
  case whens l =>
    refine eqAll_refl fun w _ => ?_
    cases w with
    | none => rfl
    | some k => exact kdtEq_refl k
  case items l =>
    refine eqAll_refl fun r hr => ?_
    obtain ⟨hp, ha⟩ := h r hr
    have hp : FinePt r.coord := hp
    simp only [rowEq, Bool.and_eq_true]
    refine ⟨⟨?_, ?_⟩, ?_⟩
    · cases r.when_ with
      | none => rfl
      | some k => exact kdtEq_refl k
    · exact geoEq_refl (g := .point r.coord) hp
    · cases hang : r.angle with
      | none => rfl
      | some a =>
        obtain ⟨h1, h2, h3⟩ := ha a hang
        simp [angleEq, beq_refl_fine h1, beq_refl_fine h2, beq_refl_fine h3]
  all_goals simp

theorem rule_kind {c e : Cls} {as : List Str} (h : eqRule c = .fields e as) : (fastkml.info c).geom ≠ .multi := by
  have : ∀ c ∈ Cls.all, eqRule c = .default ∨ (fastkml.info c).geom ≠ .multi := by decide +kernel
  rcases this c (Cls.mem_all c) with h' | h'
  · rw [h'] at h; cases h
  · exact h'

theorem mem_zip_self {α : Type} {a b : α} : ∀ {l : List α}, (a, b) ∈ l.zip l → a = b ∧ a ∈ l
  | [], h => by simp at h
  | c :: l, h => by
    simp only [List.zip_cons_cons, List.mem_cons, Prod.mk.injEq] at h
    rcases h with ⟨h1, h2⟩ | h
    · exact ⟨h1.trans h2.symm, by simp [h1]⟩
    · obtain ⟨h1, h2⟩ := mem_zip_self h
      exact ⟨h1, by simp [h2]⟩

theorem pyEq_self (v : Val Cls F) : AllRegular v → NoNaN v → pyEq v v = .ok true := by
  have : ∀ n (v : Val Cls F), v.depth = n → AllRegular v → NoNaN v → pyEq v v = .ok true := by
    intro n
    induction n using Nat.strongRecOn with
    | ind n ih =>
      intro v hd hr hn
      by_cases ho : ∃ c ns nss as, v = .obj c ns nss as
      · obtain ⟨c, ns, nss, as, rfl⟩ := ho
        have hreg : Inst.Reg ⟨c, ns, nss, as⟩ := hr _ _ _ _ .self
        have hat : ∀ a ∈ names c, pyEq (attr a as) (attr a as) = .ok true := by
          intro a ha
          have hm : (a, attr a as) ∈ as := hreg.mem ha
          have := depthAttrs_mem hm
          simp only [Val.depth] at hd
          exact ih _ (by omega) _ rfl (hr.attr hm) (hn.attr hm)
        rw [pyEq_eq]
        simp only [eqStep, instEq, ne_eq, not_true_eq_false, false_and, if_false]
        cases hrule : eqRule c with
        | default =>
          simp only [methodEq, hrule, if_true]
          exact (dictEq_reg pyEq hreg hreg rfl).mpr ⟨rfl, fun _ => rfl, hat⟩
        | fields e fs =>
          obtain ⟨hm, hgn, hgf, hnm⟩ := rule_facts hrule
          refine (fields_reg pyEq hreg hreg hrule hm).mpr ⟨fun a ha => hat a (hnm c hm a ha), ?_, rfl, fun _ => rfl⟩
          obtain ⟨g, hg⟩ := geometry_total (x := ⟨c, ns, nss, as⟩) hr hrule
          simp only [geometryEq, hg]
          cases g with
          | none => rfl
          | some g =>
            have := (geometry_fine _ hr.typed hn c ns nss as rfl hgn (rule_kind hrule) hgf g hg).1
            simp only [optGeoEq, geoEq_refl this]
      · by_cases hl : ∃ l, v = .list l
        · obtain ⟨l, rfl⟩ := hl
          rw [pyEq_eq]
          simp only [eqStep, listEq, ne_eq, not_true_eq_false, if_false, allE_true, List.mem_map]
          rintro r ⟨⟨a, b⟩, hp, rfl⟩
          obtain ⟨rfl, hm⟩ := mem_zip_self hp
          have := depthList_mem hm
          simp only [Val.depth] at hd
          exact ih a.depth (by omega) a rfl (hr.member hm) (hn.member hm)
        · have h1 : ∀ c ns nss as, v ≠ .obj c ns nss as := fun c ns nss as h => ho ⟨_, _, _, _, h⟩
          have h2 : ∀ l, v ≠ .list l := fun l h => hl ⟨l, h⟩
          rw [pyEq_plain h1 h2, plainEq_refl (hn v .self) h1 h2]
  exact this _ v rfl

end

end Verif
