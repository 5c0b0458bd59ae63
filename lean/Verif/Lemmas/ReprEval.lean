import Verif.Lemmas.RebuiltRegular
import Verif.Lemmas.CycleRead
import Verif.Props.Scalars
import Verif.Props.Times

/-!
# Evaluating printed objects
-/

set_option linter.unusedSectionVars false
set_option linter.unusedSimpArgs false

namespace Verif
open Spec

variable {F : Type} [PyExt F] [PyClose F] [LawfulExt F] [LawfulClose F]

/-! ## The parts of fresh objects -/

theorem Spec.Fresh.attr {c : Cls} {ns : Str} {nss : NsMap} {attrs : List (Str × Val Cls F)}
    (h : Fresh (.obj c ns nss attrs)) {a : Str} {v : Val Cls F} (hm : (a, v) ∈ attrs) : Fresh v :=
  ⟨h.regular.attr hm, h.numbers.attr hm, fun w hw => h.times w (.attr hm hw), everywhere_attr h.made hm⟩

theorem Spec.Fresh.member {l : List (Val Cls F)} (h : Fresh (.list l)) {v : Val Cls F} (hm : v ∈ l) : Fresh v :=
  ⟨h.regular.member hm, h.numbers.member hm, fun w hw => h.times w (.member hm hw), everywhere_member h.made hm⟩

/-! ## Constructor arguments -/

theorem keepTruthy_all {l : List (Val Cls F)} (h : ∀ v ∈ l, truthy fastkml v = .ok true) :
    keepTruthy fastkml l = .ok l := by
  induction l with
  | nil => rfl
  | cons v l ih =>
    simp only [keepTruthy, h v (by simp), ih fun v hv => h v (by simp [hv]), if_true]

theorem keepTruthy_true {l r : List (Val Cls F)} (h : keepTruthy fastkml l = .ok r) :
    ∀ v ∈ r, truthy fastkml v = .ok true := by
  induction l generalizing r with
  | nil => cases h; simp
  | cons v l ih =>
    simp only [keepTruthy] at h
    cases hv : truthy fastkml v with
    | error e => rw [hv] at h; cases h
    | ok b =>
      rw [hv] at h
      cases hl : keepTruthy fastkml l with
      | error e => rw [hl] at h; cases h
      | ok s =>
        rw [hl] at h
        simp only [Except.ok.injEq] at h
        subst h
        cases b
        · simpa using ih hl
        · intro w hw
          simp only [if_true, List.mem_cons] at hw
          rcases hw with rfl | hw
          · exact hv
          · exact ih hl w hw

/-- A stored argument, passed again, is stored unchanged. -/
theorem normalise_again {n : Norm} {v w : Val Cls F} (h : normalise fastkml n v = .ok w) :
    normalise fastkml n w = .ok w := by
  cases n with
  | raw => rfl
  | clean =>
    cases v <;> simp only [normalise, Except.ok.injEq, reduceCtorEq] at h
    · subst h; rfl
    · rename_i s
      cases hc : cleanString (some s) with
      | none => rw [hc] at h; subst h; rfl
      | some t =>
        rw [hc] at h
        subst h
        have := C23_idempotent (some s)
        rw [hc] at this
        simp only [normalise, this]
  | orEmpty =>
    cases v <;> simp only [normalise, Except.ok.injEq, reduceCtorEq] at h <;> (subst h; rfl)
  | orNone =>
    have h : (match truthy fastkml v with
      | .error e => .error e
      | .ok b => .ok (if b then v else .none)) = Except.ok w := h
    cases hv : truthy fastkml v with
    | error e => rw [hv] at h; cases h
    | ok b =>
      rw [hv] at h
      cases b
      · simp only [Bool.false_eq_true, if_false, Except.ok.injEq] at h
        subst h; rfl
      · simp only [if_true, Except.ok.injEq] at h
        subst h
        simp only [normalise, hv, if_true]
  | listOr => cases v <;> simp only [normalise, Except.ok.injEq, reduceCtorEq] at h <;> (subst h; rfl)
  | listNotNone => cases v <;> simp only [normalise, Except.ok.injEq, reduceCtorEq] at h <;> (subst h; rfl)
  | listTruthy =>
    cases v <;> simp only [normalise, Except.ok.injEq, reduceCtorEq] at h
    · subst h; rfl
    · rename_i l
      cases hl : keepTruthy fastkml l with
      | error e => rw [hl] at h; cases h
      | ok r =>
        rw [hl] at h
        simp only [Except.ok.injEq] at h
        subst h
        simp only [normalise, keepTruthy_all (keepTruthy_true hl)]
  | coordsOr => cases v <;> simp only [normalise, Except.ok.injEq, reduceCtorEq] at h <;> (subst h; rfl)

theorem truthy_rebuilt {v : Val Cls F} (hr : AllRegular v) (hn : NoNaN v) :
    truthy fastkml (rebuilt v) = truthy fastkml v := by
  simp only [truthy, info_rebuilt v hr hn]

theorem normalise_rebuilt {n : Norm} {w : Val Cls F} (hr : AllRegular w) (hn : NoNaN w)
    (h : normalise fastkml n w = .ok w) : normalise fastkml n (rebuilt w) = .ok (rebuilt w) := by
  cases n with
  | raw => rfl
  | orNone =>
    have h : (match truthy fastkml w with
      | .error e => .error e
      | .ok b => .ok (if b then w else .none)) = Except.ok w := h
    have h2 := truthy_rebuilt hr hn
    cases hv : truthy fastkml w with
    | error e => rw [hv] at h; cases h
    | ok b =>
      rw [hv] at h h2
      cases b
      · simp only [Bool.false_eq_true, if_false, Except.ok.injEq] at h
        subst h; rfl
      · show (match truthy fastkml (rebuilt w) with
          | .error e => Except.error e
          | .ok b => Except.ok (if b then rebuilt w else .none)) = _
        rw [h2]; rfl
  | listTruthy =>
    cases w <;> simp only [normalise, Except.ok.injEq, reduceCtorEq] at h
    rename_i l
    simp only [rebuilt, normalise, rebuiltList_eq]
    cases hl : keepTruthy fastkml l with
    | error e => rw [hl] at h; cases h
    | ok r =>
      rw [hl] at h
      simp only [Except.ok.injEq, Val.list.injEq] at h
      subst h
      rw [keepTruthy_all]
      intro v hv
      obtain ⟨y, hy, rfl⟩ := List.mem_map.mp hv
      rw [truthy_rebuilt (hr.member hy) (hn.member hy)]
      exact keepTruthy_true hl y hy
  | _ => cases w <;> simp only [normalise, Except.ok.injEq, reduceCtorEq] at h <;>
      first | (simp only [rebuilt, normalise]; done) | (simp only [rebuilt, normalise, h])

/-- What a constructor call gives. -/
theorem init_exact {c : Cls} {ns : Str} {nss : NsMap} {kw attrs : List (Str × Val Cls F)}
    (hnss : mergeNs nss = nss)
    (hkeys : ∀ a ∈ kw.map Prod.fst, a ∈ specialArgs (fastkml.info c).special ++ (fastkml.info c).slots.map Prod.fst)
    (hsp : specialInit fastkml (fastkml.info c).special kw = .ok
      (if (fastkml.info c).special = .track then [(s% "track_items", attr (s% "track_items") attrs)] else []))
    (hlay : attrs.map Prod.fst = names c)
    (hslot : ∀ a n, (a, n) ∈ (fastkml.info c).slots → normalise fastkml n (kwGet a kw) = .ok (attr a attrs)) :
    init fastkml c (some ns) nss kw = .ok (.obj c ns nss attrs) := by
  have hex : kw.filter (fun p => decide (p.1 ∉ specialArgs (fastkml.info c).special ++
      (fastkml.info c).slots.map Prod.fst)) = [] := by
    rw [List.filter_eq_nil_iff]
    intro p hp
    have := hkeys p.1 (List.mem_map_of_mem hp)
    simp only [decide_eq_true_eq, Classical.not_not]
    exact this
  simp only [init, construct, Option.getD_some, hex, ne_eq, not_true_eq_false, false_and, if_false, hsp,
    fillSlots_eq (g := fun a _ => attr a attrs) hslot, hnss, List.nil_append, Except.ok.injEq, Val.obj.injEq, true_and]
  have hn : (attrs.map Prod.fst).Nodup := hlay ▸ names_nodup c
  have : attrs = (names c).map fun a => (a, attr a attrs) := by
    rw [← hlay, List.map_map]
    conv => lhs; rw [← List.map_id attrs]
    apply List.map_congr_left
    rintro ⟨a, v⟩ hp
    simp only [id_eq, Function.comp_apply, attr, dget_of_mem hn hp, Option.getD_some]
  conv => rhs; rw [this]
  simp only [names, List.map_append, List.map_map]
  congr 1
  split <;> rfl

/-! ## Fixed tables -/

theorem repr_keys {c : Cls} {f : Str × Str × Conv} (h : f ∈ reprFields c) : f.1 = f.2.1 := by
  have : ∀ c ∈ Cls.all, ∀ f ∈ reprFields c, f.1 = f.2.1 := by decide +kernel
  exact this c (Cls.mem_all c) f h

theorem repr_nodup (c : Cls) : ((reprFields c).map Prod.fst).Nodup := by
  have : ∀ c ∈ Cls.all, ((reprFields c).map Prod.fst).Nodup := by decide +kernel
  exact this c (Cls.mem_all c)

theorem repr_names {c : Cls} (hc : c ∉ abstractClasses) {f : Str × Str × Conv} (h : f ∈ reprFields c) :
    f.1 = s% "geometry" ∧ c ∈ geometryClasses ∨ f.1 ≠ s% "geometry" ∧ f.1 ∈ names c ∧ f.1 ∉ ofGeometry c := by
  have : ∀ c ∈ Cls.all, c ∉ abstractClasses → ∀ f ∈ reprFields c,
      f.1 = s% "geometry" ∧ c ∈ geometryClasses ∨ f.1 ≠ s% "geometry" ∧ f.1 ∈ names c ∧ f.1 ∉ ofGeometry c := by
    decide +kernel
  exact this c (Cls.mem_all c) hc f h

theorem names_repr {c : Cls} (hc : c ∉ abstractClasses) {a : Str} (ha : a ∈ names c) :
    a ≠ s% "geometry" ∧ (a ∈ ofGeometry c ∨ a ∈ (reprFields c).map Prod.fst) := by
  have : ∀ c ∈ Cls.all, c ∉ abstractClasses → ∀ a ∈ names c,
      a ≠ s% "geometry" ∧ (a ∈ ofGeometry c ∨ a ∈ (reprFields c).map Prod.fst) := by decide +kernel
  exact this c (Cls.mem_all c) hc a ha

theorem repr_geometry {c : Cls} (hc : c ∈ geometryClasses) : s% "geometry" ∈ (reprFields c).map Prod.fst := by
  have : ∀ c ∈ geometryClasses, s% "geometry" ∈ (reprFields c).map Prod.fst := by decide +kernel
  exact this c hc

/-- Enumerations are printed with `str`, everything else with `repr`. -/
theorem repr_conv {c : Cls} (hc : c ∉ abstractClasses) {f : Str × Str × Conv} (h : f ∈ reprFields c)
    (hg : f.1 ≠ s% "geometry") :
    (fastkml.info c).special = .track ∧ f.1 = s% "track_items" ∧ f.2.2 = .repr ∨
    ∃ it ∈ fastkml.itemsOf c, it.attr = f.1 ∧ it.get ≠ .subDtList ∧ it.get ≠ .coordsList ∧
      (f.2.2 = .str ↔ it.get = .subEnum ∨ it.get = .attrEnum) := by
  have : ∀ c ∈ Cls.all, c ∉ abstractClasses → ∀ f ∈ reprFields c, f.1 ≠ s% "geometry" →
    (fastkml.info c).special = .track ∧ f.1 = s% "track_items" ∧ f.2.2 = .repr ∨
    ((fastkml.itemsOf c).any fun it => decide (it.attr = f.1 ∧ it.get ≠ .subDtList ∧ it.get ≠ .coordsList) &&
      (decide (f.2.2 = .str) == decide (it.get = .subEnum ∨ it.get = .attrEnum))) = true := by decide +kernel
  rcases this c (Cls.mem_all c) hc f h hg with h | h
  · exact Or.inl h
  · refine Or.inr ?_
    simp only [List.any_eq_true, Bool.and_eq_true, decide_eq_true_eq, beq_iff_eq, decide_eq_decide] at h
    obtain ⟨it, hit, ⟨h1, h2, h3⟩, h4⟩ := h
    exact ⟨it, hit, h1, h2, h3, h4⟩

/-! ## Plain values -/

theorem KmlDateTime.again_made {k : KmlDateTime} (h : TimeMade k) : k.again = k := by
  obtain ⟨m, r, rfl⟩ := h
  exact C22_idempotent m r

theorem evaluable_numeric {v : Val Cls F} (h : Numeric v) : evaluable v = true := by
  cases v with
  | float f =>
    have h : PyExt.isNaN f = false := h
    simp [evaluable, h]
  | floats l =>
    have h : ∀ f ∈ l, PyExt.isNaN f = false := h
    simp only [evaluable, List.all_eq_true]
    intro f hf
    simp [h f hf]
  | coords l =>
    have h : ∀ p ∈ l, ∀ f ∈ p, PyExt.isNaN f = false := h
    simp only [evaluable, List.all_eq_true]
    intro p hp f hf
    simp [h p hp f hf]
  | items l =>
    have h : ∀ r ∈ l, (∀ f ∈ r.coord, PyExt.isNaN f = false) ∧
      ∀ a, r.angle = some a → PyExt.isNaN a.1 = false ∧ PyExt.isNaN a.2.1 = false ∧ PyExt.isNaN a.2.2 = false := h
    simp only [evaluable, List.all_eq_true, Bool.and_eq_true]
    intro r hr
    refine ⟨fun f hf => by simp [(h r hr).1 f hf], ?_⟩
    cases ha : r.angle with
    | none => rfl
    | some a =>
      obtain ⟨h1, h2, h3⟩ := (h r hr).2 a ha
      simp [h1, h2, h3]
  | _ => rfl

theorem evalLit_made {v : Val Cls F} (h : TimesMade v) : evalLit v = v := by
  cases v with
  | dt k => simp only [evalLit, KmlDateTime.again_made h]
  | whens l =>
    have h : ∀ w ∈ l, ∀ k, w = some k → TimeMade k := h
    simp only [evalLit, Val.whens.injEq]
    conv => rhs; rw [← List.map_id l]
    apply List.map_congr_left
    intro w hw
    cases w with
    | none => rfl
    | some k => simp only [Option.map_some, id_eq, KmlDateTime.again_made (h _ hw k rfl)]
  | items l =>
    have h : ∀ r ∈ l, ∀ k, r.when_ = some k → TimeMade k := h
    simp only [evalLit, Val.items.injEq]
    conv => rhs; rw [← List.map_id l]
    apply List.map_congr_left
    intro r hr
    obtain ⟨w, p, a⟩ := r
    cases w with
    | none => rfl
    | some k => simp only [Option.map_some, id_eq, KmlDateTime.again_made (h _ hr k rfl)]
  | _ => rfl

theorem evalP_lit {v : Val Cls F} (h : Numeric v) (ht : TimesMade v) : evalP (.lit v) = .ok (.val v) := by
  simp only [evalP, evaluable_numeric h, if_true, evalLit_made ht]

/-! ## Lists and arguments -/

theorem eval_list {l : List (Val Cls F)} (h : ∀ v ∈ l, ∃ e, reprOf v = .ok e ∧ evalP e = .ok (.val (rebuilt v))) :
    ∃ es, seqE (reprList l) = .ok es ∧ ∃ xs, evalList es = .ok xs ∧ listOf xs = .ok (.val (.list (l.map rebuilt))) := by
  induction l with
  | nil => exact ⟨[], rfl, [], rfl, rfl⟩
  | cons v l ih =>
    obtain ⟨e, h1, h2⟩ := h v (by simp)
    obtain ⟨es, h3, xs, h4, h5⟩ := ih fun v hv => h v (by simp [hv])
    refine ⟨e :: es, ?_, .val (rebuilt v) :: xs, ?_, ?_⟩
    · simp only [reprList, seqE, h1, h3]
    · simp only [evalList, h2, h4]
    · simp only [listOf, h5, List.map_cons]

theorem eval_args {fs : List (Str × Str × Conv)} {R : Str × Str × Conv → Except Err (PExpr F)}
    {G : Str × Str × Conv → PVal F} (h : ∀ f ∈ fs, ∃ e, R f = .ok e ∧ evalP e = .ok (G f)) :
    ∃ as, seqE (fs.map fun f => withKey f.1 (R f)) = .ok as ∧ evalArgs as = .ok (fs.map fun f => (f.1, G f)) := by
  induction fs with
  | nil => exact ⟨[], rfl, rfl⟩
  | cons f fs ih =>
    obtain ⟨e, h1, h2⟩ := h f (by simp)
    obtain ⟨as, h3, h4⟩ := ih fun f hf => h f (by simp [hf])
    refine ⟨(f.1, e) :: as, ?_, ?_⟩
    · have hk : withKey f.1 (R f) = .ok (f.1, e) := by rw [h1]; rfl
      simp only [List.map_cons, seqE, hk, h3]
    · simp only [evalArgs, h2, h4, List.map_cons]

/-- The value of an argument. -/
def argVal (g : Option (Geo F)) (attrs : List (Str × Val Cls F)) (a : Str) : PVal F :=
  if a = s% "geometry" then match g with
    | none => .val .none
    | some g => .geo g
  else .val (rebuilt (attr a attrs))

/-- The arguments besides the geometry. -/
def kwArgs (c : Cls) (attrs : List (Str × Val Cls F)) : List (Str × Val Cls F) :=
  ((reprFields c).filter fun f => decide (f.1 ≠ s% "geometry")).map fun f => (f.1, rebuilt (attr f.1 attrs))

theorem otherArgs_eq {g : Option (Geo F)} {attrs : List (Str × Val Cls F)} (fs : List (Str × Str × Conv)) :
    otherArgs (fs.map fun f => (f.1, argVal g attrs f.1)) =
      .ok ((fs.filter fun f => decide (f.1 ≠ s% "geometry")).map fun f => (f.1, rebuilt (attr f.1 attrs))) := by
  induction fs with
  | nil => rfl
  | cons f fs ih =>
    simp only [List.map_cons, otherArgs, ih]
    by_cases hf : f.1 = s% "geometry"
    · rw [if_pos hf, List.filter_cons_of_neg (by simp [hf])]
    · rw [if_neg hf, List.filter_cons_of_pos (by simp [hf])]
      simp only [argVal, if_neg hf, List.map_cons]

theorem dget_map_key {α β : Type} {G : Str → β} (fs : List (Str × α)) (a : Str) :
    dget a (fs.map fun f => (f.1, G f.1)) = if a ∈ fs.map Prod.fst then some (G a) else none := by
  induction fs with
  | nil => rfl
  | cons f fs ih =>
    simp only [List.map_cons, dget, List.mem_cons]
    by_cases h : f.1 = a
    · subst h; simp
    · have h' : ¬ a = f.1 := fun e => h e.symm
      simp only [if_neg h, ih, h', false_or]

theorem geometryArg_eq {c : Cls} {g : Option (Geo F)} {attrs : List (Str × Val Cls F)}
    (h : s% "geometry" ∈ (reprFields c).map Prod.fst ∨ g = none) :
    geometryArg ((reprFields c).map fun f => (f.1, argVal g attrs f.1)) = .ok g := by
  simp only [geometryArg]
  rw [dget_map_key (G := argVal g attrs)]
  by_cases hm : (s% "geometry" : Str) ∈ (reprFields c).map Prod.fst
  · rw [if_pos hm]
    cases g <;> simp [argVal]
  · rw [if_neg hm]
    rcases h with h | h
    · exact absurd h hm
    · rw [h]

theorem kwGet_kwArgs {c : Cls} (hc : c ∉ abstractClasses) {attrs : List (Str × Val Cls F)} {a : Str}
    (ha : a ∈ names c) : kwGet a (kwArgs c attrs) = if a ∈ ofGeometry c then .none else rebuilt (attr a attrs) := by
  obtain ⟨hg, hk⟩ := names_repr hc ha
  simp only [kwGet, kwArgs]
  rw [dget_map_key (G := fun a => rebuilt (attr a attrs))]
  by_cases ho : a ∈ ofGeometry c
  · rw [if_pos ho, if_neg]
    · rfl
    · intro hm
      obtain ⟨f, hf, rfl⟩ := List.mem_map.mp hm
      obtain ⟨hf, _⟩ := List.mem_filter.mp hf
      rcases repr_names hc hf with ⟨h, _⟩ | ⟨_, _, h⟩
      · exact hg h
      · exact h ho
  · rw [if_neg ho, if_pos]
    · rfl
    · rcases hk with h | h
      · exact absurd h ho
      · obtain ⟨f, hf, rfl⟩ := List.mem_map.mp h
        exact List.mem_map_of_mem (List.mem_filter.mpr ⟨hf, by simpa using hg⟩)

theorem keys_kwArgs {c : Cls} (hc : c ∉ abstractClasses) {attrs : List (Str × Val Cls F)} {a : Str}
    (h : a ∈ (kwArgs c attrs).map Prod.fst) : a ∈ names c := by
  simp only [kwArgs, List.map_map, List.mem_map, List.mem_filter, Function.comp_apply, decide_eq_true_eq] at h
  obtain ⟨f, ⟨hf, hg⟩, rfl⟩ := h
  rcases repr_names hc hf with ⟨h, _⟩ | ⟨_, h, _⟩
  · exact absurd h hg
  · exact h

theorem names_known {c : Cls} {a : Str} (h : a ∈ names c) :
    a ∈ specialArgs (fastkml.info c).special ++ (fastkml.info c).slots.map Prod.fst := by
  simp only [names, List.mem_append] at h ⊢
  rcases h with h | h
  · split at h
    · rename_i hs
      simp only [List.mem_singleton] at h
      subst h
      rw [hs]
      exact Or.inl (by simp [specialArgs])
    · cases h
  · exact Or.inr h

/-! ## Calls -/

theorem init_parts {c : Cls} {ns0 : Option Str} {nss0 : NsMap} {kw : List (Str × Val Cls F)} {ns : Str} {nss : NsMap}
    {attrs : List (Str × Val Cls F)} (h : init fastkml c ns0 nss0 kw = .ok (.obj c ns nss attrs)) :
    nss = mergeNs nss0 ∧ (∀ a n, (a, n) ∈ (fastkml.info c).slots → ∃ v, normalise fastkml n v = .ok (attr a attrs)) := by
  obtain ⟨ex, sp, sl, _, _, _, he⟩ := construct_ok h
  refine ⟨by cases he; rfl, fun a n ha => ?_⟩
  obtain ⟨_, as, w, h1, h2, h3⟩ := init_slot h (slots_nodup c) ha
  cases h1
  have h3 : attr a attrs = w := h3
  exact ⟨_, h3 ▸ h2⟩

theorem cleanString_ne_nil {s : Str} {t : Str} (h : cleanString (some s) = some t) : t ≠ [] := by
  rw [cleanString_some] at h
  split at h
  · cases h
  · rename_i hn
    simp only [Option.some.injEq] at h
    subst h
    exact hn

theorem attr_rebuilt_obj {c : Cls} {g : Option (Geo F)} {attrs : List (Str × Val Cls F)} {a : Str}
    (h : a ∉ ofGeometry c) : attr a (fromGeometry c g (rebuiltAttrs attrs)) = rebuilt (attr a attrs) := by
  rw [attr_fromGeometry h, attr_rebuilt]

/-- The constructor, called with the rebuilt attributes. -/
theorem init_rebuilt {c : Cls} {ns : Str} {nss : NsMap} {attrs : List (Str × Val Cls F)}
    (hf : Fresh (.obj c ns nss attrs)) {g : Option (Geo F)} {kw : List (Str × Val Cls F)}
    (hkeys : ∀ a ∈ kw.map Prod.fst, a ∈ names c)
    (hkw : ∀ a ∈ names c, a ∉ ofGeometry c → kwGet a kw = rebuilt (attr a attrs))
    (hgeo : ∀ a n, (a, n) ∈ (fastkml.info c).slots → a ∈ ofGeometry c →
      normalise fastkml n (kwGet a kw) = .ok (attr a (fromGeometry c g (rebuiltAttrs attrs)))) :
    init fastkml c (some ns) nss kw = .ok (.obj c ns nss (fromGeometry c g (rebuiltAttrs attrs))) := by
  have hR : Inst.Reg ⟨c, ns, nss, attrs⟩ := hf.regular _ _ _ _ .self
  have hlay : attrs.map Prod.fst = names c := hR.layout
  have hC := hf.made _ _ _ _ .self
  obtain ⟨ns0, nss0, kw0, hmade⟩ := hC.made
  obtain ⟨hnss, hnorm⟩ := init_parts hmade
  have hfr : ∀ a ∈ names c, Fresh (attr a attrs) := fun a ha => hf.attr (hR.mem ha)
  have hslotname : ∀ a n, (a, n) ∈ (fastkml.info c).slots → a ∈ names c := fun a n h => by
    simp only [names, List.mem_append]
    exact Or.inr (List.mem_map_of_mem (f := Prod.fst) h)
  have hkw0 : ∀ a, a ∉ names c → kwGet a kw = .none := by
    intro a ha
    unfold kwGet
    cases hd : dget a kw with
    | none => rfl
    | some v => exact absurd (hkeys a (List.mem_map_of_mem (f := Prod.fst) (dget_mem hd))) ha
  refine init_exact (by rw [hnss, mergeNs_idem]) (fun a ha => names_known (hkeys a ha)) ?_ (by rw [keys_rebuilt, hlay]) ?_
  · -- the checks
    cases hsp : (fastkml.info c).special with
    | none => simp [specialInit]
    | kml => simp [specialInit]
    | schema =>
      have hs : c = .Schema := by
        have : ∀ c ∈ Cls.all, (fastkml.info c).special = .schema → c = .Schema := by decide +kernel
        exact this c (Cls.mem_all c) hsp
      subst hs
      have hid : (s% "id" : Str) ∈ names .Schema := by decide +kernel
      have hsl : (s% "id", Norm.clean) ∈ (fastkml.info .Schema).slots := by decide +kernel
      have hne := hC.schema rfl
      obtain ⟨v, hv⟩ := hnorm _ _ hsl
      simp only [specialInit, reduceCtorEq, if_false]
      rw [hkw _ hid (by decide +kernel)]
      cases v <;> simp only [normalise, Except.ok.injEq, reduceCtorEq] at hv
      · exact absurd hv.symm hne
      · rename_i s
        cases hcl : cleanString (some s) with
        | none => rw [hcl] at hv; exact absurd hv.symm hne
        | some t =>
          rw [hcl] at hv
          have hv : Val.str t = attr (s% "id") attrs := hv
          rw [← hv]
          have := cleanString_ne_nil hcl
          cases t with
          | nil => exact absurd rfl this
          | cons x t => rfl
    | track =>
      have hs : c = .Track := by
        have : ∀ c ∈ Cls.all, (fastkml.info c).special = .track → c = .Track := by decide +kernel
        exact this c (Cls.mem_all c) hsp
      subst hs
      have htr := hR.typed
      simp only [objOk, hsp, Bool.and_eq_true] at htr
      have htr := htr.2
      simp only [specialInit, if_true]
      have h1 := hkw (s% "track_items") (by decide +kernel) (by decide +kernel)
      have h2 := hkw0 (s% "whens") (by decide +kernel)
      have h3 := hkw0 (s% "coords") (by decide +kernel)
      have h4 := hkw0 (s% "angles") (by decide +kernel)
      rw [attr_rebuilt_obj (by decide +kernel)]
      obtain ⟨l, hit⟩ : ∃ l, attr (s% "track_items") attrs = .items l := by
        have htr : trackOk attrs = true := by simpa using htr
        unfold trackOk at htr
        generalize attr (s% "track_items") attrs = w at htr ⊢
        cases w <;> first | exact ⟨_, rfl⟩ | cases htr
      rw [hit] at h1 ⊢
      simp only [trackItems, h1, h2, h3, h4, rebuilt, ne_eq, not_true_eq_false, or_self, false_and, if_false, and_false]
    | placemark =>
      have hs : c = .Placemark := by
        have : ∀ c ∈ Cls.all, (fastkml.info c).special = .placemark → c = .Placemark := by decide +kernel
        exact this c (Cls.mem_all c) hsp
      subst hs
      have hk : (s% "kml_geometry" : Str) ∈ names .Placemark := by decide +kernel
      simp only [specialInit, reduceCtorEq, if_false]
      rw [hkw _ hk (by decide +kernel), truthy_rebuilt (hfr _ hk).regular (hfr _ hk).numbers]
      cases ht : truthy fastkml (attr (s% "kml_geometry") attrs) with
      | ok b => rfl
      | error x =>
        exact absurd (truthy_typed_error fastkml_boolOk (hfr _ hk).regular.typed ht).2 not_typeErr_dim23
  · intro a n ha
    have han := hslotname a n ha
    by_cases ho : a ∈ ofGeometry c
    · exact hgeo a n ha ho
    · rw [hkw a han ho, attr_rebuilt_obj ho]
      obtain ⟨v, hv⟩ := hnorm a n ha
      exact normalise_rebuilt (hfr a han).regular (hfr a han).numbers (normalise_again hv)

theorem newRing {ns : Option Str} {nss : NsMap} {l : List (Pt F)} (hl : l ≠ []) :
    initCoords .LinearRing ns nss (some (.linearRing l)) [] = .ok (.obj .LinearRing
      (ns.getD (nsGet (mergeNs nss) (fastkml.info .LinearRing).nsid)) (mergeNs nss)
      [(s% "kml_coordinates", coordsObj l), (s% "extrude", .none), (s% "tessellate", .none), (s% "id", .str []),
       (s% "target_id", .str []), (s% "altitude_mode", .none)]) := by
  have hne : (Geo.linearRing l).nonEmpty = true := by simpa [Geo.nonEmpty] using hl
  simp only [initCoords, reduceCtorEq, if_false, newCoordinates_ok (g := .linearRing l) rfl, hne, if_true]
  rfl

theorem newBoundary {c : Cls} (hc : c = .OuterBoundaryIs ∨ c = .InnerBoundaryIs) {l : List (Pt F)} (hl : l ≠ []) :
    initBoundary c none [] (some (.linearRing l)) [] = .ok (boundaryObj c l) := by
  have hne : (Geo.linearRing l).nonEmpty = true := by simpa [Geo.nonEmpty] using hl
  simp only [initBoundary, newRing hl, hne, if_true]
  rcases hc with rfl | rfl <;> rfl

theorem seqE_ok {α β : Type} {l : List α} {f : α → Except Err β} {g : α → β} (h : ∀ x ∈ l, f x = .ok (g x)) :
    seqE (l.map f) = .ok (l.map g) := by
  induction l with
  | nil => rfl
  | cons x l ih =>
    simp only [List.map_cons, seqE, h x (by simp), ih fun x hx => h x (by simp [hx])]

theorem evalRings_normal {ls : List (List (Pt F))} (h : ∀ l ∈ ls, NormalRing l) : evalRings ls = .ok ls := by
  induction ls with
  | nil => rfl
  | cons l ls ih =>
    simp only [evalRings, mkRing_normal (h l (by simp)), liftGeo, ih fun l hl => h l (by simp [hl])]

theorem slot_norm {c : Cls} {a : Str} {n m : Norm} (h : (a, n) ∈ (fastkml.info c).slots)
    (hm : dget a (fastkml.info c).slots = some m) : n = m := by
  have hn : ((fastkml.info c).slots.map Prod.fst).Nodup := (List.nodup_append.mp (slots_nodup c)).2.1
  have := dget_of_mem hn h
  rw [hm] at this
  exact (Option.some.inj this).symm

theorem callCls_rebuilt {c : Cls} {ns : Str} {nss : NsMap} {attrs : List (Str × Val Cls F)}
    (hf : Fresh (.obj c ns nss attrs)) {args : List (Str × PVal F)}
    (hargs : args = (reprFields c).map fun f => (f.1, argVal (if c ∈ geometryClasses then
      geometryOf (.obj c ns nss attrs) else none) attrs f.1)) :
    callCls c ns nss args = .ok (rebuilt (.obj c ns nss attrs)) := by
  have hC := hf.made _ _ _ _ .self
  have hc := hC.concrete
  have hR : Inst.Reg ⟨c, ns, nss, attrs⟩ := hf.regular _ _ _ _ .self
  have hkw : ∀ a ∈ names c, a ∉ ofGeometry c → kwGet a (kwArgs c attrs) = rebuilt (attr a attrs) := by
    intro a ha ho
    rw [kwGet_kwArgs hc ha, if_neg ho]
  have hkeys : ∀ a ∈ (kwArgs c attrs).map Prod.fst, a ∈ names c := fun a ha => keys_kwArgs hc ha
  have hset : ∀ (kw : List (Str × Val Cls F)) (b : Str) (w : Val Cls F), b ∈ names c →
      (∀ a ∈ kw.map Prod.fst, a ∈ names c) → ∀ a ∈ (dset b w kw).map Prod.fst, a ∈ names c := by
    intro kw b w hb h a ha
    rw [keys_dset] at ha
    split at ha
    · exact h a ha
    · simp only [List.mem_append, List.mem_singleton] at ha
      rcases ha with ha | rfl
      · exact h a ha
      · exact hb
  simp only [callCls]
  rw [hargs, otherArgs_eq]
  have hka : ((reprFields c).filter fun f => decide (f.1 ≠ s% "geometry")).map
    (fun f => (f.1, rebuilt (attr f.1 attrs))) = kwArgs c attrs := rfl
  rw [hka]
  simp only [rebuilt]
  by_cases hg : c ∈ geometryClasses
  · rw [if_pos hg, geometryArg_eq (Or.inl (repr_geometry hg))]
    obtain ⟨g, hg1, hg2, hcase⟩ := geo_cases hg hf.regular hf.numbers
    rw [hg2]
    have hkml : ∀ {a : Str}, a ∈ ofGeometry c → kwGet a (kwArgs c attrs) = .none := by
      intro a ha
      by_cases hn : a ∈ names c
      · rw [kwGet_kwArgs hc hn, if_pos ha]
      · unfold kwGet
        cases hd : dget a (kwArgs c attrs) with
        | none => rfl
        | some v => exact absurd (hkeys a (List.mem_map_of_mem (f := Prod.fst) (dget_mem hd))) hn
    have hmem : ∀ {a : Str}, a ∈ names c → a ∈ (rebuiltAttrs attrs).map Prod.fst := by
      intro a ha
      rw [rebuiltAttrs_eq, List.map_map]
      show a ∈ attrs.map Prod.fst
      rw [hR.layout]
      exact ha
    cases hcase with
    | none =>
      refine init_rebuilt hf hkeys hkw fun a n hs ho => ?_
      rw [hkml ho]
      simp only [geometryClasses, List.mem_cons, List.not_mem_nil, or_false] at hg
      rcases hg with rfl | rfl | rfl
      · simp only [ofGeometry, true_or, if_true, List.mem_singleton] at ho
        subst ho
        rw [attr_coords (Or.inl rfl) (hmem (by decide +kernel))]
        have : n = .raw := slot_norm hs (by decide +kernel)
        subst this; rfl
      · simp only [ofGeometry, or_true, if_true, List.mem_singleton] at ho
        subst ho
        rw [attr_coords (Or.inr rfl) (hmem (by decide +kernel))]
        have : n = .raw := slot_norm hs (by decide +kernel)
        subst this; rfl
      · simp only [ofGeometry, reduceCtorEq, or_self, if_false, if_true, List.mem_cons, List.not_mem_nil, or_false] at ho
        rcases ho with rfl | rfl
        · rw [attr_outer (hmem (by decide +kernel))]
          have : n = .raw := slot_norm hs (by decide +kernel)
          subst this; rfl
        · rw [attr_inner (hmem (by decide +kernel))]
          have : n = .listOr := slot_norm hs (by decide +kernel)
          subst this; rfl
    | @line l hl =>
      have hne : (Geo.lineString l).nonEmpty = true := by simpa [Geo.nonEmpty] using hl.nonempty
      simp only [or_true, true_or, if_true, initCoords, reduceCtorEq, if_false,
        hkml (a := s% "kml_coordinates") (by decide +kernel), Val.notNone, Bool.false_eq_true, hne,
        newCoordinates_ok (g := .lineString l) rfl]
      refine init_rebuilt hf (hset _ _ _ (by decide +kernel) hkeys) (fun a ha ho => ?_) fun a n hs ho => ?_
      · rw [kwGet_dset, if_neg (by rintro rfl; exact ho (by decide +kernel)), hkw a ha ho]
      · simp only [ofGeometry, true_or, if_true, List.mem_singleton] at ho
        subst ho
        rw [attr_coords (Or.inl rfl) (hmem (by decide +kernel)), kwGet_dset, if_pos rfl]
        have : n = .raw := slot_norm hs (by decide +kernel)
        subst this; rfl
    | @ring l hl =>
      have hne : (Geo.linearRing l).nonEmpty = true := by simpa [Geo.nonEmpty] using hl.nonempty
      simp only [or_true, true_or, if_true, initCoords, reduceCtorEq, if_false,
        hkml (a := s% "kml_coordinates") (by decide +kernel), Val.notNone, Bool.false_eq_true, hne,
        newCoordinates_ok (g := .linearRing l) rfl]
      refine init_rebuilt hf (hset _ _ _ (by decide +kernel) hkeys) (fun a ha ho => ?_) fun a n hs ho => ?_
      · rw [kwGet_dset, if_neg (by rintro rfl; exact ho (by decide +kernel)), hkw a ha ho]
      · simp only [ofGeometry, or_true, if_true, List.mem_singleton] at ho
        subst ho
        rw [attr_coords (Or.inr rfl) (hmem (by decide +kernel)), kwGet_dset, if_pos rfl]
        have : n = .raw := slot_norm hs (by decide +kernel)
        subst this; rfl
    | @polygon s hs hs1 hs2 =>
      simp only [reduceCtorEq, or_self, if_false, if_true, initPolygon,
        hkml (a := s% "outer_boundary") (by decide +kernel), Val.notNone, Bool.false_eq_true,
        newBoundary (Or.inl rfl) hs1.nonempty,
        seqE_ok (l := hs) (g := boundaryObj .InnerBoundaryIs) fun h hh => newBoundary (Or.inr rfl) (hs2 h hh).nonempty]
      have hne : ¬ (s% "inner_boundaries" : Str) = s% "outer_boundary" := by decide
      refine init_rebuilt hf (hset _ _ _ (by decide +kernel) (hset _ _ _ (by decide +kernel) hkeys))
        (fun a ha ho => ?_) fun a n hs ho => ?_
      · rw [kwGet_dset, if_neg (by rintro rfl; exact ho (by decide +kernel)), kwGet_dset,
          if_neg (by rintro rfl; exact ho (by decide +kernel)), hkw a ha ho]
      · simp only [ofGeometry, reduceCtorEq, or_self, if_false, if_true, List.mem_cons, List.not_mem_nil, or_false] at ho
        rcases ho with rfl | rfl
        · rw [attr_outer (hmem (by decide +kernel)), kwGet_dset, if_neg hne, kwGet_dset, if_pos rfl]
          have : n = .raw := slot_norm hs (by decide +kernel)
          subst this; rfl
        · rw [attr_inner (hmem (by decide +kernel)), kwGet_dset, if_pos rfl]
          have : n = .listOr := slot_norm hs (by decide +kernel)
          subst this; rfl
  · rw [if_neg hg, geometryArg_eq (Or.inr rfl)]
    exact init_rebuilt hf hkeys hkw fun a n _ ho => by rw [ofGeometry_nil hg] at ho; cases ho

/-! ## `eval(repr(v))` -/

theorem evalGeo_case {c : Cls} {g : Option (Geo F)} (h : GeoCase c g) :
    ∃ e, printedGeometry (.ok g) = .ok e ∧ evalP e = .ok (argVal g [] (s% "geometry")) := by
  cases h with
  | none => exact ⟨_, rfl, rfl⟩
  | line h => exact ⟨_, rfl, by simp only [evalP, evalGeo, mkLine_normal h, liftGeo]; rfl⟩
  | ring h => exact ⟨_, rfl, by simp only [evalP, evalGeo, mkRing_normal h, liftGeo]; rfl⟩
  | polygon h h' => exact ⟨_, rfl, by simp only [evalP, evalGeo, mkRing_normal h, liftGeo, evalRings_normal h']; rfl⟩

theorem reprAttrs_eq (attrs : List (Str × Val Cls F)) : reprAttrs attrs = attrs.map fun p => (p.1, reprOf p.2) := by
  induction attrs with
  | nil => simp only [reprAttrs, List.map_nil]
  | cons p r ih => obtain ⟨a, v⟩ := p; simp only [reprAttrs, List.map_cons, ih]

/-- Values whose `repr` can be evaluated: no members of enumerations. -/
def Prints : Val Cls F → Prop
  | .enum _ _ => False
  | .list l => ∀ w ∈ l, ∃ c ns nss attrs, w = .obj c ns nss attrs
  | _ => True

theorem kindOk_enum {P : Pt F → Bool} {it : Item Cls} {e : EnumId} {x : Str} (h : kindOk P it (.enum e x) = true)
    (h1 : it.get ≠ .subDtList) (h2 : it.get ≠ .coordsList) : it.get = .subEnum ∨ it.get = .attrEnum := by
  simp only [kindOk] at h
  split at h <;> simp_all [isInst]

theorem kindOk_enum_none {P : Pt F → Bool} {it : Item Cls} {v : Val Cls F} (h : kindOk P it v = true)
    (h1 : it.get = .subEnum ∨ it.get = .attrEnum) (h2 : ∀ e x, v ≠ .enum e x) : v = .none := by
  cases v <;> rcases h1 with h1 | h1 <;> simp_all [kindOk]

theorem kindOk_list {P : Pt F → Bool} {it : Item Cls} {l : List (Val Cls F)} (h : kindOk P it (.list l) = true)
    (h1 : it.get ≠ .subDtList) (h2 : it.get ≠ .coordsList) {w : Val Cls F} (hw : w ∈ l) :
    ∃ c ns nss attrs, w = .obj c ns nss attrs := by
  simp only [kindOk] at h
  split at h <;> simp_all [isInst]
  have := h w hw
  cases w <;> simp_all

/-- Printing a fresh value and evaluating the text gives the value with the elements of
its lines, rings and polygons made anew. -/
theorem eval_repr (v : Val Cls F) : Fresh v → Prints v →
    ∃ e, reprOf v = .ok e ∧ evalP e = .ok (.val (rebuilt v)) := by
  induction v using Val.deepInd with
  | hother v hv hl =>
    intro hf he
    have h1 := hf.numbers v .self
    have h2 := hf.times v .self
    cases v <;> first | exact absurd rfl (hv _ _ _ _) | exact absurd rfl (hl _) | exact absurd he id |
      exact ⟨_, rfl, by simp only [rebuilt]; exact evalP_lit h1 h2⟩
  | hlist l ih =>
    intro hf hp
    obtain ⟨es, h1, xs, h2, h3⟩ := eval_list (l := l) fun v hv => ih v hv (hf.member hv) (by
      obtain ⟨c, ns, nss, attrs, rfl⟩ := hp v hv
      trivial)
    refine ⟨.list es, ?_, ?_⟩
    · simp only [reprOf, h1, reprItems]
    · simp only [evalP, h2, h3, rebuilt, rebuiltList_eq]
  | hobj c ns nss attrs ih =>
    intro hf _
    have hR : Inst.Reg ⟨c, ns, nss, attrs⟩ := hf.regular _ _ _ _ .self
    have hc := (hf.made _ _ _ _ .self).concrete
    obtain ⟨as, has, hev⟩ := eval_args (fs := reprFields c)
      (R := fun f => reprArg (.obj c ns nss attrs) attrs (reprAttrs attrs) f.2.1 f.2.2)
      (G := fun f => argVal (if c ∈ geometryClasses then geometryOf (.obj c ns nss attrs) else none) attrs f.1) (by
        intro f hfm
        have hk := repr_keys hfm
        rw [← hk]
        rcases repr_names hc hfm with ⟨h1, h2⟩ | ⟨h1, h2, h3⟩
        · obtain ⟨g, hg1, hg2, hcase⟩ := geo_cases h2 hf.regular hf.numbers
          obtain ⟨e, he1, he2⟩ := evalGeo_case hcase
          refine ⟨e, ?_, ?_⟩
          · simp only [reprArg, h1, if_true, hg1]; exact he1
          · rw [if_pos h2, hg2, he2, h1]
            simp only [argVal, if_true]
        · have hm := hR.mem h2
          have hm : (f.1, attr f.1 attrs) ∈ attrs := hm
          have hd : dget f.1 attrs = some (attr f.1 attrs) := hR.get h2
          have hdr : dget f.1 (reprAttrs attrs) = some (reprOf (attr f.1 attrs)) := by
            rw [reprAttrs_eq, dget_map_kv reprOf, hd]; rfl
          have ih := ih f.1 _ hm (hf.attr hm)
          simp only [reprArg, if_neg h1, hd, hdr, argVal]
          by_cases hen : ∃ e x, attr f.1 attrs = .enum e x
          · obtain ⟨e, x, hen⟩ := hen
            have hconv : f.2.2 = .str := by
              rcases repr_conv hc hfm h1 with ⟨hs, ht, _⟩ | ⟨it, hit, ha, hn1, hn2, hi⟩
              · exfalso
                have htr := hR.typed
                simp only [objOk, hs, Bool.and_eq_true] at htr
                have htr : trackOk attrs = true := by simpa using htr.2
                rw [ht] at hen
                rw [trackOk, hen] at htr
                cases htr
              · rw [hi]
                have hk := hR.typed
                simp only [objOk, Bool.and_eq_true, List.all_eq_true] at hk
                have hk := hk.1 it hit
                rw [ha, hen] at hk
                exact kindOk_enum hk hn1 hn2
            rw [hen, hconv]
            exact ⟨_, rfl, by simp only [rebuilt]; rfl⟩
          · have hne : ∀ e x, attr f.1 attrs ≠ .enum e x := fun e x h => hen ⟨e, x, h⟩
            have hp : Prints (attr f.1 attrs) := by
              cases hv : attr f.1 attrs with
              | enum e x => exact absurd hv (hne e x)
              | list l =>
                rcases repr_conv hc hfm h1 with ⟨hs, ht, _⟩ | ⟨it, hit, ha, hn1, hn2, hi⟩
                · exfalso
                  have htr := hR.typed
                  simp only [objOk, hs, Bool.and_eq_true] at htr
                  have htr : trackOk attrs = true := by simpa using htr.2
                  rw [ht] at hv
                  rw [trackOk, hv] at htr
                  cases htr
                · have hk := hR.typed
                  simp only [objOk, Bool.and_eq_true, List.all_eq_true] at hk
                  have hk := hk.1 it hit
                  rw [ha, hv] at hk
                  exact fun w hw => kindOk_list hk hn1 hn2 hw
              | _ => trivial
            obtain ⟨e, he1, he2⟩ := ih hp
            refine ⟨e, ?_, he2⟩
            cases hconv : f.2.2 with
            | repr => exact he1
            | str =>
              rcases repr_conv hc hfm h1 with ⟨_, _, hr⟩ | ⟨it, hit, ha, hn1, hn2, hi⟩
              · rw [hconv] at hr; cases hr
              · have hk := hR.typed
                simp only [objOk, Bool.and_eq_true, List.all_eq_true] at hk
                have hk := hk.1 it hit
                rw [ha] at hk
                have : attr f.1 attrs = .none := kindOk_enum_none hk (hi.mp hconv) hne
                rw [this] at he1 ⊢
                exact he1)
    refine ⟨.call c ns nss as, ?_, ?_⟩
    · have hsplat : Inst.splat ⟨c, ns, nss, attrs⟩ = [] := hR.splat
      simp only [reprOf, reprStep, has, hsplat, List.map_nil, seqE, List.append_nil]
    · simp only [evalP, hev, callCls_rebuilt hf rfl]

end Verif
