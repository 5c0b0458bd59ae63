import Verif.Spec.Verbosity
import Verif.Props.Writing
import Verif.Lemmas.Canonical
import Verif.Lemmas.XmlText
import Verif.Props.Empty
import Verif.Props.Cycle

/-!
# Verbosity: nesting of the outputs, and changing it later
-/

set_option linter.unusedSectionVars false
set_option linter.unusedSimpArgs false

namespace Verif

open Spec

variable {F : Type} [PyExt F]

/-! ## Nesting -/

theorem Spec.WithinKids.append {ks ls ks' ls' : List Xml} (h : WithinKids ks ls) (h' : WithinKids ks' ls') :
    WithinKids (ks ++ ks') (ls ++ ls') := by
  induction ls generalizing ks with
  | nil => cases h; exact h'
  | cons l ls ih =>
    cases h with
    | keep h1 h2 => exact .keep h1 (ih h2)
    | «omit» h1 => exact .omit (ih h1)

theorem withinKids_flatten {bs bs' : List (List Xml)} (h : All2 WithinKids bs bs') :
    WithinKids bs.flatten bs'.flatten := by
  induction h with
  | nil => exact .nil
  | cons h1 _ ih => exact h1.append ih

theorem withinKids_all2 {ks ls : List Xml} (h : All2 Within ks ls) : WithinKids ks ls := by
  induction h with
  | nil => exact .nil
  | cons h1 _ ih => exact .keep h1 ih

mutual
theorem within_refl : ∀ e : Xml, Within e e
  | .mk _ _ _ ks => .mk (fun _ h => h) (Or.inr rfl) (withinKids_refl ks)
theorem withinKids_refl : ∀ ks : List Xml, WithinKids ks ks
  | [] => .nil
  | k :: ks => .keep (within_refl k) (withinKids_refl ks)
end

/-- The first verbosity shows the same as the second, or nothing. -/
def Less (vb vb' : Verbosity) : Prop :=
  ∀ d w : Val Cls F, shown vb d w = .none ∨ shown vb d w = shown vb' d w

theorem less_terse : Less (F := F) .terse .normal := by
  intro d w
  simp only [shown]
  by_cases h : scalarEq w d = true
  · exact Or.inl (by simp [h])
  · exact Or.inr (by simp [h])

theorem less_verbose : Less (F := F) .normal .verbose := by
  intro d w
  simp only [shown]
  cases w <;> simp [isNone]

theorem all2_ofZip {α β γ : Type} {R : α → β → Prop} {S : α → γ → Prop} {T : β → γ → Prop} {l : List α} {m : List β}
    {n : List γ} (h : All2 R l m) (h' : All2 S l n) (hT : ∀ a ∈ l, ∀ b c, R a b → S a c → T b c) : All2 T m n := by
  induction h generalizing n with
  | nil => cases h'; exact .nil
  | @cons a b l m h1 _ ih =>
    cases h' with
    | cons h2 h3 =>
      exact .cons (hT a (by simp) _ _ h1 h2) (ih h3 fun x hx => hT x (by simp [hx]))

theorem within_ser {vb vb' : Verbosity} (hvb : Less (F := F) vb vb') (P : Pt F → Bool) (p : Option Nat) (v : Val Cls F) :
    typed fastkml P v = true → ∀ {e e' : Xml}, ser fastkml ⟨p, vb⟩ v = .ok e → ser fastkml ⟨p, vb'⟩ v = .ok e' →
    Within e e' := by
  induction v using Val.objInd with
  | hother v hv => intro _ e e' h _; cases v <;> first | exact absurd rfl (hv _ _ _ _) | simp [ser] at h
  | hobj c ns nss attrs ih ihl =>
    intro ht e e' he he'
    have hty := typed_obj.mp ht
    have w := written ht he
    have w' := written ht he'
    have hn := ser_attrs he
    have hn' := ser_attrs he'
    obtain ⟨tag, as, t, ks⟩ := e
    obtain ⟨tag', as', t', ks'⟩ := e'
    have htag : tag = tag' := w.tag.trans w'.tag.symm
    subst htag
    have hshown : ∀ (d x : Val Cls F) (s : Str), scalarText (shown vb d x) = some s →
        scalarText (shown vb' d x) = some s := by
      intro d x s hs
      rcases hvb d x with h | h
      · rw [h] at hs; cases hs
      · rw [← h]; exact hs
    refine .mk ?_ ?_ ?_
    · rintro ⟨k, x⟩ hx
      rcases w.noAttr _ hx with ⟨it, hit, hp, hk⟩ | ⟨hk, _, _⟩
      · have hk : k = it.node := hk
        subst hk
        have hg : dget it.node as = some x := dget_of_mem hn.1 hx
        have h1 := w.attr it hit hp
        have h2 := w'.attr it hit hp
        simp only [attrText, hp, Xml.get, Xml.attrs] at h1 h2
        rw [hg] at h1
        rw [hshown _ _ _ h1.symm] at h2
        exact dget_mem h2
      · have h1 := hn.2 hk
        have h2 := hn'.2 hk
        simp only [Xml.attrs] at h1 h2
        rw [h2, ← h1]; exact hx
    · by_cases hc : ∃ it ∈ fastkml.itemsOf c, place it.get = .text
      · obtain ⟨it, hit, hp⟩ := hc
        have h1 := w.text it hit hp
        have h2 := w'.text it hit hp
        simp only [Xml.text, elemText] at h1 h2
        by_cases hg : it.get = .nodeText
        · simp only [hg] at h1 h2
          cases t with
          | none => exact Or.inl rfl
          | some s => right; rw [h2, hshown _ _ _ h1.symm]
        · right
          have hg : it.get = .coordinates := by
            revert hp hg
            cases it.get <;> simp [place]
          simp only [hg] at h1 h2
          rw [h1, h2]
      · left
        exact w.noText fun it hit hp => hc ⟨it, hit, hp⟩
    · obtain ⟨bs, h1, h2⟩ := w.kids
      obtain ⟨bs', h1', h2'⟩ := w'.kids
      simp only [Xml.kids] at h2 h2'
      rw [h2, h2']
      refine withinKids_flatten (all2_ofZip h1 h1' ?_)
      intro it hit b b' hb hb'
      unfold Block at hb hb'
      cases hp : place it.get <;> rw [hp] at hb hb' <;> simp only at hb hb'
      · rw [hb, hb']; exact .nil
      · rw [hb, hb']
        rcases hvb it.dflt.val (value fastkml c attrs it.attr) with h | h
        · rw [h]
          simp only [scalarKid, scalarText]
          split
          · exact .nil
          · exact .omit .nil
        · rw [h]; exact withinKids_refl _
      · rw [hb, hb']; exact .nil
      · rw [hb, hb']; exact withinKids_refl _
      · have hv := (getattr_stored ((fastkml_writeOk c).item it hit) (by rw [hp]; simp) ⟨p, vb⟩ attrs).2
        rcases hb with ⟨hb1, hb2⟩ | ⟨x, hb1, hb2, hb3⟩ <;> rcases hb' with ⟨hb1', hb2'⟩ | ⟨x', hb1', hb2', hb3'⟩
        · rw [hb2, hb2']; exact .nil
        · rw [hb1] at hb1'; cases hb1'
        · rw [hb1] at hb1'; cases hb1'
        · rw [hb3, hb3']
          rw [hv] at hb2 hb2'
          have hne : attrOf it.attr attrs ≠ .none := by
            intro h; rw [h] at hb2; simp [ser] at hb2
          have hm := attrOf_mem rfl hne
          exact .keep (ih _ _ hm (hty.2.2.1 _ _ hm) hb2 hb2') .nil
      · obtain ⟨l, hl, _, hb2⟩ := hb
        obtain ⟨l', hl', _, hb2'⟩ := hb'
        rw [hl] at hl'; cases hl'
        have hv := (getattr_stored ((fastkml_writeOk c).item it hit) (by rw [hp]; simp) ⟨p, vb⟩ attrs).2
        rw [hv] at hl
        have hm := attrOf_mem hl (by simp)
        refine withinKids_all2 (all2_ofZip hb2 hb2' ?_)
        intro x hx y y' hy hy'
        have hx := (List.mem_filter.mp hx).1
        exact ihl _ _ hm _ hx (hty.2.2.2 _ _ hm _ hx) hy hy'

/-! ## Changed scalars that are written alike -/

/-- Changing scalars with `f` does not change whether the objects in the attributes are empty;
the object has all scalar attributes. -/
structure Steady {C : Type} [DecidableEq C] (L : Lib C) (f : Item C → Val C F → Val C F) (c : C)
    (attrs : List (Str × Val C F)) : Prop where
  all : ∀ it ∈ L.itemsOf c, scalar it.get = true → dget it.attr attrs ≠ none
  obj : ∀ it ∈ L.itemsOf c, place it.get = .object → ∀ d ns nss as, attr it.attr attrs = .obj d ns nss as →
    truthy L (mapScalars L f (.obj d ns nss as)) = truthy L (.obj d ns nss as)
  mem : ∀ it ∈ L.itemsOf c, place it.get = .objects → ∀ l, attr it.attr attrs = .list l → ∀ w ∈ l,
    truthy L (mapScalars L f w) = truthy L w

theorem dget_mapped {C : Type} [DecidableEq C] (L : Lib C) (f : Item C → Val C F → Val C F) (items : List (Item C))
    (a : Str) (attrs : List (Str × Val C F)) :
    dget a (attrs.map fun p => (p.1, changeScalar items f p.1 p.2 (mapScalars L f p.2))) =
      (dget a attrs).map fun v => changeScalar items f a v (mapScalars L f v) := by
  induction attrs with
  | nil => rfl
  | cons p attrs ih =>
    obtain ⟨b, v⟩ := p
    simp only [List.map_cons, dget]
    by_cases hb : b = a
    · subst hb; simp
    · simp only [hb, if_false]; exact ih

theorem ser_mapScalars {C : Type} [DecidableEq C] {L : Lib C} (hR : ∀ c, ReadOk L c) (hW : ∀ c, WriteOk L c)
    {P : Pt F → Bool} {p : Option Nat} {vb vb' : Verbosity} {f : Item C → Val C F → Val C F}
    {D : C → Prop} (hf : ∀ c, D c → ∀ it ∈ L.itemsOf c, scalar it.get = true → ∀ w, kindOk P it w = true →
      kindOk P it (f it w) = true ∧ shown vb it.dflt.val (f it w) = shown vb' it.dflt.val w)
    (v : Val C F) : typed L P v = true → Everywhere (fun c _ _ attrs => Steady L f c attrs ∧ D c) v →
    ser L ⟨p, vb⟩ (mapScalars L f v) = ser L ⟨p, vb'⟩ v := by
  induction v using Val.objInd with
  | hother v hv =>
    intro _ _
    cases v <;> first | exact absurd rfl (hv _ _ _ _) | simp [mapScalars, ser]
  | hobj c ns nss attrs ih ihl =>
    intro ht hst
    have hty := typed_obj.mp ht
    obtain ⟨hS, hD⟩ := hst c ns nss attrs .self
    rw [mapScalars_obj, ser_obj, ser_obj]
    generalize hm : (attrs.map fun p => (p.1, changeScalar (L.itemsOf c) f p.1 p.2 (mapScalars L f p.2))) = attrs'
    have hd : ∀ a, dget a attrs' = (dget a attrs).map fun v => changeScalar (L.itemsOf c) f a v (mapScalars L f v) := by
      intro a; rw [← hm]; exact dget_mapped L f _ a attrs
    have key : ∀ it ∈ L.itemsOf c, contrib it ns nss ⟨p, vb⟩ (getattr (L.info c).special (serAttrs L ⟨p, vb⟩ attrs') it.attr) =
        contrib it ns nss ⟨p, vb'⟩ (getattr (L.info c).special (serAttrs L ⟨p, vb'⟩ attrs) it.attr) := by
      intro it hit
      have hw := (hW c).item it hit
      by_cases hp : place it.get = .children
      · have hsp : (L.info c).special = .track ∧ (it.attr = s% "whens" ∨ it.attr = s% "coords" ∨ it.attr = s% "angles") := by
          have : it.get = .subDtList ∨ it.get = .coordsList := by
            revert hp
            cases it.get <;> simp [place]
          rcases this with h | h
          · exact ⟨(hw.whens.mp h).1, Or.inl (hw.whens.mp h).2⟩
          · exact ⟨(hw.coords.mp h).1, Or.inr (hw.coords.mp h).2⟩
        have hrows : itemsOf' attrs' = itemsOf' attrs := by
          unfold itemsOf'
          have h1 := hty.2.1 hsp.1
          unfold trackOk at h1
          rw [attr_eq] at h1
          have h2 : attrOf (s% "track_items") attrs' = attrOf (s% "track_items") attrs := by
            unfold attrOf at h1 ⊢
            rw [hd]
            cases hg : dget (s% "track_items") attrs with
            | none => rfl
            | some w =>
              rw [hg] at h1
              simp only [Option.getD_some, Option.map_some] at h1 ⊢
              rw [changeScalar_none ((hR c).no_trackItems hsp.1)]
              cases w <;> first | rfl | simp at h1
          rw [h2]
        rw [getattr_serAttrs, getattr_serAttrs, if_pos hsp, if_pos hsp]
        unfold propOf
        rw [hrows]
        have hgv : ∀ (vb : Verbosity), (∀ l, getValue (.whens l : Val C F) vb it.dflt = .whens l) ∧
            ∀ l, getValue (.coords l : Val C F) vb it.dflt = .coords l := by
          intro vb
          constructor <;> intro l <;> unfold getValue <;> cases it.dflt <;> simp [Val.notNone, eqDflt]
        have hset : it.set = .subDtList ∨ it.set = .coordsList := by
          rw [hw.set]
          revert hp
          cases it.get <;> simp [place, setOf]
        unfold contrib
        rcases hset with hset | hset <;> rw [hset] <;>
        rcases hsp with ⟨h1, h2 | h2 | h2⟩ <;> simp [h1, h2, SView.prop, (hgv _).1, (hgv _).2]
      · rw [(getattr_stored hw hp ⟨p, vb⟩ attrs').1, (getattr_stored hw hp ⟨p, vb'⟩ attrs).1]
        cases hg : dget it.attr attrs with
        | none =>
          have h1 : attrOf it.attr attrs = .none := by simp [attrOf, hg]
          have h2 : attrOf it.attr attrs' = .none := by simp [attrOf, hd, hg]
          have hs : scalar it.get ≠ true := fun hs => hS.all it hit hs hg
          have hkind := hty.1 it hit
          rw [h1] at hkind
          rw [h1, h2]
          have hcases : it.get = .coordinates ∨ it.get = .xmlSub ∨ it.get = .xmlSubList := by
            revert hs hp
            cases it.get <;> simp [scalar, place]
          unfold contrib
          rw [hw.set]
          rcases hcases with hg' | hg' | hg' <;> simp only [setOf, kindOk, hg', Bool.false_eq_true] at hkind ⊢
          simp [sview, truthy, info, Info.plain]
        | some w =>
          have h1 : attrOf it.attr attrs = w := by simp [attrOf, hg]
          have h2 : attrOf it.attr attrs' = if scalar it.get then f it w else mapScalars L f w := by
            simp [attrOf, hd, hg, changeScalar_item (hR c) hit]
          have hmem := dget_mem hg
          have hkind := hty.1 it hit
          rw [h1] at hkind
          rw [h1, h2]
          by_cases hs : scalar it.get = true
          · rw [if_pos hs]
            obtain ⟨k1, k2⟩ := hf c hD it hit hs w hkind
            rw [contrib_scalar (sv := sview L ⟨p, vb⟩ (f it w)) hs hw.set hw.dflt k1,
              contrib_scalar (sv := sview L ⟨p, vb'⟩ w) hs hw.set hw.dflt hkind]
            have hc : elemText ⟨p, vb⟩ it (f it w) = elemText ⟨p, vb'⟩ it w := by
              unfold elemText
              cases hg' : it.get <;> simp only [k2]
              rw [hg'] at hs; cases hs
            simp only [sview, attrText, hc, k2]
          · rw [if_neg hs]
            have hcases : it.get = .coordinates ∨ it.get = .xmlSub ∨ it.get = .xmlSubList := by
              revert hs hp
              cases it.get <;> simp [scalar, place]
            unfold contrib
            rw [hw.set]
            rcases hcases with hg' | hg' | hg' <;> simp only [setOf, kindOk, hg'] at hkind ⊢
            · cases w <;> simp only [Bool.false_eq_true] at hkind
              rfl
            · cases w <;> simp only [isInst, Bool.false_eq_true] at hkind
              · rfl
              · rename_i d ns' nss' as'
                simp only [sview]
                rw [hS.obj it hit (by rw [hg']; rfl) _ _ _ _ (by rw [attr_eq]; exact h1), ih _ _ hmem (hty.2.2.1 _ _ hmem) (everywhere_attr hst hmem)]
            · cases w <;> simp only [Bool.false_eq_true] at hkind
              rename_i l
              simp only [sview, mapScalars_list, serMembers, serList_eq, List.map_map]
              congr 1
              have : (l.map ((fun v => (truthy L v, ser L ⟨p, vb⟩ v)) ∘ mapScalars L f)) =
                  l.map fun v => (truthy L v, ser L ⟨p, vb'⟩ v) := by
                refine List.map_congr_left fun w hw => ?_
                simp only [Function.comp]
                rw [hS.mem it hit (by rw [hg']; rfl) _ (by rw [attr_eq]; exact h1) w hw, ihl _ _ hmem w hw (hty.2.2.2 _ _ hmem w hw)
                  (everywhere_member (everywhere_attr hst hmem) hw)]
              rw [this]
    have hall : ∀ items, (∀ it ∈ items, it ∈ L.itemsOf c) → ∀ el,
        setAll ns nss ⟨p, vb⟩ (L.info c).special (serAttrs L ⟨p, vb⟩ attrs') items el =
        setAll ns nss ⟨p, vb'⟩ (L.info c).special (serAttrs L ⟨p, vb'⟩ attrs) items el := by
      intro items
      induction items with
      | nil => intros; rfl
      | cons it items ih =>
        intro hi el
        simp only [setAll, setElement_eq]
        rw [key it (hi it (by simp))]
        cases contrib it ns nss ⟨p, vb'⟩ (getattr (L.info c).special (serAttrs L ⟨p, vb'⟩ attrs) it.attr) with
        | error e => rfl
        | ok k => exact ih (fun i h => hi i (by simp [h])) _
    unfold serStep
    by_cases hk : (L.info c).special = .kml
    · simp only [hk, if_true]
      have hkml := (hW c).kml hk
      cases hi : L.itemsOf c with
      | nil => rw [hi] at hkml; simp at hkml
      | cons it items =>
        rw [hi] at hkml
        simp only [List.map_cons, List.cons.injEq, Prod.mk.injEq] at hkml
        have hit : it ∈ L.itemsOf c := by rw [hi]; simp
        have h1 := fun (o : Opts) (a : List (Str × SView C F)) (el : Xml) =>
          setElement_eq it ns nss o (getattr (L.info c).special a it.attr) el
        have h2 : ∀ (o : Opts) (sv : SView C F) el, setElement it ns nss o sv el = setXmlSubList sv el := by
          intro o sv el
          unfold setElement
          rw [((hW c).item it hit).set, hkml.1.2]
          rfl
        have h3 := fun el => (h1 ⟨p, vb⟩ (serAttrs L ⟨p, vb⟩ attrs') el).trans ((by rw [key it hit]) : _ = _) |>.trans
          (h1 ⟨p, vb'⟩ (serAttrs L ⟨p, vb'⟩ attrs) el).symm
        simp only [h2, hkml.1.1, hk] at h3
        exact h3 _
    · simp only [hk, if_false]
      exact hall _ (fun _ h => h) _

/-! ## Geometry does not depend on scalars -/

/-- The geometries with coordinates. -/
def rigid : List Cls :=
  [.Coordinates, .Point, .LineString, .LinearRing, .BoundaryIs, .OuterBoundaryIs, .InnerBoundaryIs, .Polygon, .MultiGeometry]

/-- The attributes the geometry depends on. -/
def geomDeps : GeomKind → List Str
  | .point | .lineString | .linearRing => [s% "kml_coordinates"]
  | .boundary => [s% "kml_geometry"]
  | .polygon => [s% "outer_boundary", s% "inner_boundaries"]
  | .multi => [s% "kml_geometries"]
  | _ => []

/-- The attributes the truth value depends on, apart from the geometry. -/
def boolDeps : BoolRule → List Str
  | .allTruthy l => l
  | _ => []

/-- The geometry and the truth value of these classes depend on such objects and on coordinates only. -/
def rigidOk (c : Cls) : Bool :=
  ((geomDeps (fastkml.info c).geom ++ boolDeps (fastkml.info c).bool).all fun a =>
    (fastkml.itemsOf c).any fun it => decide (it.attr = a) && (decide (it.get = .coordinates) ||
      (decide (it.get = .xmlSub ∨ it.get = .xmlSubList) && it.classes.all fun t => match t with
        | .cls d => decide (d ∈ rigid)
        | _ => false))) &&
  ((fastkml.itemsOf c).all fun it => decide (it.attr ≠ s% "coords") || !scalar it.get) &&
  (match (fastkml.info c).bool with
    | .allTruthy _ | .geometry => true
    | _ => false) &&
  (match (fastkml.info c).geom with
    | .track | .multiTrack | .location | .model | .placemark => false
    | _ => true)

theorem rigid_ok {c : Cls} (h : c ∈ rigid) : rigidOk c = true := by
  have : ∀ c ∈ rigid, rigidOk c = true := by decide +kernel
  exact this c h

theorem mapScalars_coords (f : Item Cls → Val Cls F → Val Cls F) {v : Val Cls F} :
    (match mapScalars fastkml f v with | .coords l => .ok l | _ => .error .illTyped) =
    (match v with | .coords l => .ok l | _ => .error .illTyped : Except Err (List (Pt F))) := by
  cases v <;> simp [mapScalars]

theorem geomStep_congr {k : GeomKind} {as as' : List (Str × View Cls F)}
    (hk : match k with
      | .track | .multiTrack | .location | .model | .placemark => false
      | _ => true)
    (h : ∀ a ∈ geomDeps k, (viewOf a as').info = (viewOf a as).info ∧ (viewOf a as').elems = (viewOf a as).elems ∧
      coordsOf (viewOf a as').v = coordsOf (viewOf a as).v) : geomStep k as' = geomStep k as := by
  cases k <;> simp only [Bool.false_eq_true] at hk
  · rfl
  all_goals simp only [geomDeps, List.mem_cons, List.not_mem_nil, or_false, forall_eq, forall_eq_or_imp] at h
  · simp only [geomStep, h.1, h.2.2]
  · simp only [geomStep, h.1, h.2.2]
  · simp only [geomStep, h.1, h.2.2]
  · simp only [geomStep, h.1]
  · simp only [geomStep, h.1.1, h.2.2.1]
  · simp only [geomStep, h.2.1]

theorem info_rigid (P : Pt F → Bool) (f : Item Cls → Val Cls F → Val Cls F) (v : Val Cls F) :
    typed fastkml P v = true → ∀ c ns nss attrs, v = .obj c ns nss attrs → c ∈ rigid →
    info fastkml (mapScalars fastkml f v) = info fastkml v ∧
    coordsOf (mapScalars fastkml f v) = coordsOf v := by
  induction v using Val.objInd with
  | hother v hv => intro _ c ns nss attrs h; exact absurd h (hv _ _ _ _)
  | hobj c ns nss attrs ih ihl =>
    rintro ht _ _ _ _ ⟨⟩ hc
    have hty := typed_obj.mp ht
    have hr := rigid_ok hc
    simp only [rigidOk, Bool.and_eq_true, List.all_eq_true, List.any_eq_true, Bool.or_eq_true, decide_eq_true_eq] at hr
    obtain ⟨⟨⟨hr1, hr2⟩, hr3⟩, hr4⟩ := hr
    rw [mapScalars_obj]
    generalize hm : (attrs.map fun p => (p.1, changeScalar (fastkml.itemsOf c) f p.1 p.2 (mapScalars fastkml f p.2))) = attrs'
    have hd : ∀ a, dget a attrs' =
        (dget a attrs).map fun v => changeScalar (fastkml.itemsOf c) f a v (mapScalars fastkml f v) := by
      intro a; rw [← hm]; exact dget_mapped fastkml f _ a attrs
    have key : ∀ a ∈ geomDeps (fastkml.info c).geom ++ boolDeps (fastkml.info c).bool,
        info fastkml (attrOf a attrs') = info fastkml (attrOf a attrs) ∧
        infoElems fastkml (attrOf a attrs') = infoElems fastkml (attrOf a attrs) ∧
        coordsOf (attrOf a attrs') = coordsOf (attrOf a attrs) := by
      intro a ha
      obtain ⟨it, hit, rfl, hg⟩ := hr1 a ha
      unfold attrOf
      rw [hd]
      cases hg' : dget it.attr attrs with
      | none => simp
      | some w =>
        have hmem := dget_mem hg'
        have hkind := hty.1 it hit
        simp only [attrOf, hg', Option.getD_some] at hkind
        have hns : scalar it.get = false := by
          rcases hg with hg | ⟨hg | hg, _⟩ <;> rw [hg] <;> rfl
        simp only [Option.map_some, Option.getD_some, changeScalar_item (fastkml_readOk c) hit, hns, Bool.false_eq_true, if_false]
        rcases hg with hg | ⟨hg | hg, hcl⟩ <;> simp only [kindOk, hg] at hkind
        · cases w <;> simp only [Bool.false_eq_true] at hkind
          simp [mapScalars]
        · cases w <;> simp only [isInst, Bool.false_eq_true] at hkind
          · simp [mapScalars]
          · rename_i d ns' nss' as'
            have hdr := hcl _ (of_decide_eq_true hkind)
            obtain ⟨h1, h2⟩ := ih _ _ hmem (hty.2.2.1 _ _ hmem) _ _ _ _ rfl (of_decide_eq_true hdr)
            refine ⟨h1, ?_, h2⟩
            rw [mapScalars_obj]
            simp only [infoElems]
        · cases w <;> simp only [Bool.false_eq_true] at hkind
          rename_i l
          rw [mapScalars_list]
          refine ⟨by simp [info, Info.plain], ?_, by simp [coordsOf]⟩
          rw [infoElems_list, infoElems_list, List.map_map]
          refine List.map_congr_left fun w hw => ?_
          have hi := List.all_eq_true.mp hkind w hw
          cases w <;> simp only [isInst, Bool.false_eq_true] at hi
          rename_i d ns' nss' as'
          have hdr := hcl _ (of_decide_eq_true hi)
          exact (ihl _ _ hmem _ hw (hty.2.2.2 _ _ hmem _ hw) _ _ _ _ rfl (of_decide_eq_true hdr)).1
    constructor
    · rw [info_obj, info_obj]
      have hg : geomStep (fastkml.info c).geom (infoAttrs fastkml attrs') =
          geomStep (fastkml.info c).geom (infoAttrs fastkml attrs) := by
        refine geomStep_congr ?_ ?_
        · revert hr4; cases (fastkml.info c).geom <;> simp
        · intro a ha
          rw [viewOf_infoAttrs, viewOf_infoAttrs]
          exact key a (by simp [ha])
      unfold infoStep
      simp only [hg]
      congr 1
      cases hb : (fastkml.info c).bool <;> simp only [hb, Bool.false_eq_true] at hr3
      · simp only [boolStep]
        congr 1
        refine List.map_congr_left fun a ha => ?_
        rw [viewOf_infoAttrs, viewOf_infoAttrs]
        rw [(key a (by simp [hb, boolDeps, ha])).1]
      · rfl
    · simp only [coordsOf, hd]
      cases hg : dget (s% "coords") attrs with
      | none => rfl
      | some w =>
        simp only [Option.map_some]
        have hcs : changeScalar (fastkml.itemsOf c) f (s% "coords") w (mapScalars fastkml f w) = mapScalars fastkml f w := by
          unfold changeScalar
          cases hfi : (fastkml.itemsOf c).find? (fun it => decide (it.attr = s% "coords")) with
          | none => rfl
          | some it =>
            have h1 := List.mem_of_find?_eq_some hfi
            have h2 := List.find?_some hfi
            have h3 := hr2 it h1
            simp only [decide_eq_true_eq] at h2
            rcases h3 with h3 | h3
            · exact absurd h2 h3
            · simp only [Bool.not_eq_true'] at h3
              simp only [h3, Bool.false_eq_true, if_false]
        rw [hcs]
        have := mapScalars_coords f (v := w)
        revert this
        cases w <;> simp [mapScalars]

/-! ## Filling in defaults makes nothing empty -/

theorem geometry_rigid (c : Cls) : (match (fastkml.info c).bool with | .geometry => decide (c ∈ rigid) | _ => true) = true := by
  have : ∀ c ∈ Cls.all, (match (fastkml.info c).bool with | .geometry => decide (c ∈ rigid) | _ => true) = true := by
    decide +kernel
  exact this c (Cls.mem_all c)

theorem fillDefault_some {it : Item Cls} {w : Val Cls F} (h : w ≠ .none) : fillDefault it w = w := by
  unfold fillDefault
  cases w <;> simp [isNone] at h ⊢

theorem nonEmpty_fill [LawfulExt F] (N : NsMap) (v : Val Cls F) : typed fastkml dim23 v = true → AllCanonical fastkml N v →
    truthy fastkml v = .ok true → truthy fastkml (fillDefaults fastkml v) = .ok true := by
  induction v using Val.objInd with
  | hother v hv => intro _ _ h; unfold fillDefaults; rw [truthy_mapScalars hv]; exact h
  | hobj c ns nss attrs ih ihl =>
    intro ht hc htr
    have hty := typed_obj.mp ht
    have hcyc : cycle fastkml ⟨none, .verbose⟩ N (.obj c ns nss attrs) = fillDefaults fastkml (.obj c ns nss attrs) :=
      cycle_canonical fastkml_readOk (changes_verbose fastkml_readOk fastkml_cycleOk fastkml_defaultsOk N) _ ht hc
        ⟨_, _, _, _, rfl⟩
    have ht' : typed fastkml dim23 (fillDefaults fastkml (.obj c ns nss attrs)) = true := by
      rw [← hcyc]
      exact typed_cycle fastkml_readOk fastkml_writeOk fastkml_cycleOk roundOk_dim23 _ N _ ht
    obtain ⟨b, hb⟩ : ∃ b, truthy fastkml (fillDefaults fastkml (.obj c ns nss attrs)) = .ok b := by
      cases h : truthy fastkml (fillDefaults fastkml (.obj c ns nss attrs)) with
      | ok b => exact ⟨b, rfl⟩
      | error x => exact absurd (truthy_typed_error fastkml_boolOk ht' h).2 not_typeErr_dim23
    rw [hb]
    have hrule := (truthy_rule htr).mp rfl
    have hinfo := info_rigid dim23 fillDefault _ ht c ns nss attrs rfl
    have hb' := hb
    unfold fillDefaults at hb hinfo
    rw [mapScalars_obj] at hb hinfo
    generalize hm : (attrs.map fun p => (p.1, changeScalar (fastkml.itemsOf c) fillDefault p.1 p.2
      (mapScalars fastkml fillDefault p.2))) = attrs' at hb hinfo
    have hd : ∀ a, dget a attrs' = (dget a attrs).map fun v =>
        changeScalar (fastkml.itemsOf c) fillDefault a v (mapScalars fastkml fillDefault v) := by
      intro a; rw [← hm]; exact dget_mapped fastkml fillDefault _ a attrs
    have hcase : ∀ a w, dget a attrs = some w → w ≠ .none →
        attr a attrs' = w ∨ attr a attrs' = mapScalars fastkml fillDefault w := by
      intro a w hg hw
      simp only [attr, hd, hg, Option.map_some, Option.getD_some]
      unfold changeScalar
      split
      · exact Or.inr rfl
      · split
        · exact Or.inl (fillDefault_some hw)
        · exact Or.inr rfl
    have hT : ∀ a, truthy fastkml (attr a attrs) = .ok true → truthy fastkml (attr a attrs') = .ok true := by
      intro a h
      cases hg : dget a attrs with
      | none => simp [attr, hg, truthy, info, Info.plain] at h
      | some w =>
        have hw : attr a attrs = w := by simp [attr, hg]
        rw [hw] at h
        have hne : w ≠ .none := by rintro rfl; simp [truthy, info, Info.plain] at h
        have hmem := dget_mem hg
        rcases hcase a w hg hne with h1 | h1 <;> rw [h1]
        · exact h
        · exact ih _ _ hmem (hty.2.2.1 _ _ hmem) (everywhere_attr hc hmem) h
    have hS : ∀ a, IsSet attrs a → IsSet attrs' a := by
      intro a h
      unfold IsSet at h ⊢
      cases hg : dget a attrs with
      | none => simp [attr, hg] at h
      | some w =>
        have hw : attr a attrs = w := by simp [attr, hg]
        rw [hw] at h
        rcases hcase a w hg h with h1 | h1 <;> rw [h1]
        · exact h
        · cases w <;> simp [mapScalars] at h ⊢
    have : RuleSays (truthy fastkml · = .ok true) (geometry fastkml (.obj c ns nss attrs')).toOption.join attrs'
        (fastkml.info c).bool := by
      have hgeo := geometry_rigid c
      cases hbr : (fastkml.info c).bool <;> simp only [hbr] at hrule hgeo
      · trivial
      · exact fun a ha => hT a (hrule a ha)
      · obtain ⟨a, ha, h⟩ := hrule; exact ⟨a, ha, hT a h⟩
      · exact fun a ha => hS a (hrule a ha)
      · obtain ⟨a, ha, h⟩ := hrule; exact ⟨a, ha, hS a h⟩
      · rename_i a
        obtain ⟨l, w, hl, hw, h⟩ := hrule
        have hg : dget a attrs = some (.list l) := by
          unfold attr at hl
          cases hg : dget a attrs with
          | none => rw [hg] at hl; cases hl
          | some x => rw [hg] at hl; simp only [Option.getD_some] at hl; rw [hl]
        have hmem := dget_mem hg
        rcases hcase a _ hg (by simp) with h1 | h1
        · exact ⟨l, w, h1, hw, h⟩
        · rw [mapScalars_list] at h1
          exact ⟨_, _, h1, List.mem_map_of_mem hw, ihl _ _ hmem w hw (hty.2.2.2 _ _ hmem w hw)
            (everywhere_member (everywhere_attr hc hmem) hw) h⟩
      · obtain ⟨k, hk1, hk2⟩ := hrule
        refine ⟨k, ?_, hk2⟩
        have := (hinfo (of_decide_eq_true hgeo)).1
        unfold geometry at hk1 ⊢
        rw [this]; exact hk1
    rw [(truthy_rule hb).mpr this]

/-! ## Which changes are steady -/

theorem canonical_nodup {N : NsMap} {c : Cls} {nss : NsMap} {attrs : List (Str × Val Cls F)}
    (h : Canonical fastkml N c nss attrs) : (attrs.map Prod.fst).Nodup := by
  rw [h.layout]; exact nodup_layout (fastkml_readOk c)

theorem canonical_all {N : NsMap} {c : Cls} {nss : NsMap} {attrs : List (Str × Val Cls F)}
    (h : Canonical fastkml N c nss attrs) {it : Item Cls} (hit : it ∈ fastkml.itemsOf c) (hs : scalar it.get = true) :
    dget it.attr attrs ≠ none := by
  have : it.get ≠ .subDtList ∧ it.get ≠ .coordsList := by
    revert hs; cases it.get <;> simp [scalar, place]
  obtain ⟨n, hn, _⟩ := slotOk_slot ((fastkml_readOk c).slots it hit) this.1 this.2
  have hm : it.attr ∈ attrs.map Prod.fst := by
    rw [h.layout]
    exact List.mem_append_right _ (List.mem_map_of_mem (f := Prod.fst) hn)
  obtain ⟨p, hp, hpa⟩ := List.mem_map.mp hm
  have hp' : (it.attr, p.2) ∈ attrs := by rw [← hpa]; exact hp
  rw [dget_of_mem (canonical_nodup h) hp']
  simp

theorem nonEmpty_iff {w : Val Cls F} : nonEmpty fastkml w = true ↔ truthy fastkml w = .ok true := by
  unfold nonEmpty
  cases truthy fastkml w <;> simp

theorem typed_everywhere_of {P : Pt F → Bool} (v : Val Cls F) :
    Everywhere (fun c _ _ attrs => objOk fastkml P c attrs = true) v → typed fastkml P v = true := by
  induction v using Val.objInd with
  | hother v hv => intro _; cases v <;> first | exact absurd rfl (hv _ _ _ _) | rfl
  | hobj c ns nss attrs ih ihl =>
    intro h
    have h0 := h c ns nss attrs .self
    simp only [objOk, Bool.and_eq_true, List.all_eq_true, Bool.or_eq_true, decide_eq_true_eq] at h0
    refine typed_obj.mpr ⟨fun it hit => ?_, fun hs => ?_, fun a w hm => ih a w hm (everywhere_attr h hm),
      fun a l hm w hw => ihl a l hm w hw (everywhere_member (everywhere_attr h hm) hw)⟩
    · rw [← attr_eq]; exact h0.1 it hit
    · rcases h0.2 with h1 | h1
      · exact absurd hs (by simpa using h1)
      · exact h1

theorem canonical_inside {N : NsMap} {x v : Val Cls F} (h : Inside x v) (hc : AllCanonical fastkml N v) :
    AllCanonical fastkml N x := fun c ns nss as hin => hc c ns nss as (hin.trans h)

theorem attr_mem {a : Str} {attrs : List (Str × Val Cls F)} {w : Val Cls F} (h : attr a attrs = w) (hw : w ≠ .none) :
    (a, w) ∈ attrs := by
  unfold attr at h
  cases hg : dget a attrs with
  | none => rw [hg] at h; exact absurd h.symm hw
  | some x => rw [hg] at h; simp only [Option.getD_some] at h; exact h ▸ dget_mem hg

theorem steady_fill [LawfulExt F] {N : NsMap} {v : Val Cls F} 
    (ho : Everywhere (fun c _ _ attrs => objOk fastkml dim23 c attrs = true) v) (hc : AllCanonical fastkml N v) :
    Everywhere (fun c _ _ attrs => Steady fastkml fillDefault c attrs) v := by
  intro c ns nss attrs hin
  have ht' := typed_everywhere_of _ (fun c' ns' nss' as' hin' => ho c' ns' nss' as' (hin'.trans hin))
  have hc' := canonical_inside hin hc
  have hc0 := hc c ns nss attrs hin
  have hty := typed_obj.mp ht'
  refine ⟨fun it hit hs => canonical_all hc0 hit hs, ?_, ?_⟩
  · intro it hit hp d ns' nss' as hv
    have hmem := attr_mem hv (by simp)
    have h1 := hc0.object it hit hp
    rw [hv] at h1
    rcases h1 with h1 | h1
    · cases h1
    · rw [nonEmpty_iff] at h1
      rw [h1]
      exact nonEmpty_fill N _ (hty.2.2.1 _ _ hmem) (everywhere_attr hc' hmem) h1
  · intro it hit hp l hv w hw
    have hmem := attr_mem hv (by simp)
    have h1 := (hc0.objects it hit hp l hv).1 w hw
    rw [nonEmpty_iff] at h1
    rw [h1]
    exact nonEmpty_fill N _ (hty.2.2.2 _ _ hmem w hw) (everywhere_member (everywhere_attr hc' hmem) hw) h1

/-- A value of a scalar attribute has no objects in it. -/
theorem scalar_noObj {P : Pt F → Bool} {it : Item Cls} {w : Val Cls F} (hs : scalar it.get = true)
    (hk : kindOk P it w = true) {c : Cls} {ns : Str} {nss : NsMap} {as : List (Str × Val Cls F)} :
    ¬ Inside (.obj c ns nss as) w := by
  intro h
  revert hk hs
  cases h <;> cases hg : it.get <;> simp [scalar, place, kindOk, hg]

theorem inside_map {P : Pt F → Bool} {N : NsMap} {f : Item Cls → Val Cls F → Val Cls F} {v : Val Cls F} {c : Cls}
    {ns : Str} {nss : NsMap} {as : List (Str × Val Cls F)} (h : Inside (.obj c ns nss as) v) :
    Everywhere (fun c _ _ attrs => objOk fastkml P c attrs = true) v → AllCanonical fastkml N v →
    Inside (mapScalars fastkml f (.obj c ns nss as)) (mapScalars fastkml f v) := by
  induction h with
  | self => intros; exact .self
  | attr hm hi ih =>
    rename_i d ns' nss' attrs a w
    intro ho hc
    have hc0 := hc d ns' nss' attrs .self
    have ho0 := ho d ns' nss' attrs .self
    simp only [objOk, Bool.and_eq_true, List.all_eq_true] at ho0
    have hcs : changeScalar (fastkml.itemsOf d) f a w (mapScalars fastkml f w) = mapScalars fastkml f w := by
      unfold changeScalar
      split
      · rfl
      · rename_i it hf
        have h1 := List.mem_of_find?_eq_some hf
        have h2 : it.attr = a := by simpa using List.find?_some hf
        split
        · rename_i hs
          have hk := ho0.1 it h1
          have hv : attr it.attr attrs = w := by simp [attr, h2, dget_of_mem (canonical_nodup hc0) hm]
          rw [hv] at hk
          exact absurd hi (scalar_noObj hs hk)
        · rfl
    rw [mapScalars_obj fastkml f d]
    refine .attr (a := a) (List.mem_map.mpr ⟨_, hm, ?_⟩) (ih (everywhere_attr ho hm) (everywhere_attr hc hm))
    simp only [hcs]
  | member hm hi ih =>
    intro ho hc
    rw [mapScalars_list]
    exact .member (List.mem_map_of_mem hm) (ih (everywhere_member ho hm) (everywhere_member hc hm))

theorem steady_map {N : NsMap} {f : Item Cls → Val Cls F → Val Cls F} {v : Val Cls F}
    (ho : Everywhere (fun c _ _ attrs => objOk fastkml dim23 c attrs = true) v) (hc : AllCanonical fastkml N v)
    (hne : Everywhere (fun _ _ _ attrs => NoEmptyChild fastkml attrs) (mapScalars fastkml f v)) :
    Everywhere (fun c _ _ attrs => Steady fastkml f c attrs) v := by
  intro c ns nss attrs hin
  have hc0 := hc c ns nss attrs hin
  have hn := inside_map (f := f) hin ho hc
  rw [mapScalars_obj] at hn
  have hne := hne _ _ _ _ hn
  have hd := fun a => dget_mapped fastkml f (fastkml.itemsOf c) a attrs
  have hmem : ∀ it ∈ fastkml.itemsOf c, scalar it.get = false → ∀ w, attr it.attr attrs = w → w ≠ .none →
      (it.attr, mapScalars fastkml f w) ∈ attrs.map fun p =>
        (p.1, changeScalar (fastkml.itemsOf c) f p.1 p.2 (mapScalars fastkml f p.2)) := by
    intro it hit hs w hv hw
    refine List.mem_map.mpr ⟨_, attr_mem hv hw, ?_⟩
    simp [changeScalar_item (fastkml_readOk c) hit, hs]
  refine ⟨fun it hit hs => canonical_all hc0 hit hs, ?_, ?_⟩
  · intro it hit hp d ns' nss' as hv
    have h1 := hc0.object it hit hp
    rw [hv] at h1
    rcases h1 with h1 | h1
    · cases h1
    · rw [nonEmpty_iff] at h1
      rw [h1]
      have := hmem it hit (by revert hp; cases it.get <;> simp [place, scalar]) _ hv (by simp)
      rw [mapScalars_obj] at this ⊢
      exact nonEmpty_iff.mp (hne.1 _ _ _ _ _ this)
  · intro it hit hp l hv w hw
    have h1 := (hc0.objects it hit hp l hv).1 w hw
    rw [nonEmpty_iff] at h1
    rw [h1]
    have := hmem it hit (by revert hp; cases it.get <;> simp [place, scalar]) _ hv (by simp)
    rw [mapScalars_list] at this
    exact nonEmpty_iff.mp (hne.2 _ _ this _ (List.mem_map_of_mem hw))

/-! ## Defaults -/

theorem dflt_kind {P : Pt F → Bool} {it : Item Cls} (h : dfltOk it = true) (hs : scalar it.get = true) :
    kindOk P it (reread it.get false (it.dflt.val : Val Cls F)) = true := by
  unfold dfltOk at h
  cases hd : it.dflt <;> simp only [hd, Bool.and_eq_true, decide_eq_true_eq] at h
  · revert hs; cases hg : it.get <;> simp [scalar, place, kindOk, hg, reread, Dflt.val]
  · simp only [Dflt.val, reread, Bool.false_eq_true, if_false]
    split <;> rcases h with h | h | h <;> simp [kindOk, h]
  · simp [Dflt.val, reread, kindOk, h]
  · rcases h with h | h | h | h <;> simp [Dflt.val, reread, kindOk, h]
  · obtain ⟨⟨h | h, h2⟩, h3⟩ := h <;> simp [Dflt.val, reread, kindOk, h, h2, h3]
  · rcases h with h | h <;> simp [Dflt.val, reread, kindOk, h]
  · rw [h] at hs; cases hs

theorem kind_fill {P : Pt F → Bool} {it : Item Cls} (h : dfltOk it = true) (hs : scalar it.get = true) {w : Val Cls F}
    (hk : kindOk P it w = true) : kindOk P it (fillDefault it w) = true := by
  unfold fillDefault
  split
  · exact dflt_kind h hs
  · exact hk

theorem kind_drop {P : Pt F → Bool} {it : Item Cls} (hs : scalar it.get = true) {w : Val Cls F}
    (hk : kindOk P it w = true) : kindOk P it (dropDefault it w) = true := by
  unfold dropDefault
  split
  · revert hs; cases hg : it.get <;> simp [scalar, place, kindOk, hg]
  · exact hk

theorem eq_default [LawfulExt F] [LiteralExt F] {it : Item Cls} (h : dfltOk it = true) (hs : scalar it.get = true) 
    (hn : ∀ s, it.dflt = .str s → strip s = s ∧ s ≠ []) :
    scalarEq (reread it.get false (it.dflt.val : Val Cls F)) it.dflt.val = true := by
  unfold dfltOk at h
  cases hd : it.dflt <;> simp only [hd, Bool.and_eq_true, decide_eq_true_eq] at h
  · simp [Dflt.val, reread, scalarEq, number]
  · obtain ⟨h1, h2⟩ := hn _ hd
    simp [Dflt.val, reread, h1, h2, scalarEq, number]
  · simp [Dflt.val, reread, scalarEq, number]
  · simp only [Dflt.val, reread]
    split <;> simp [scalarEq, number, LawfulExt.beq_refl, LiteralExt.int]
  · simp [Dflt.val, reread, scalarEq, number]
  · simp [Dflt.val, reread, scalarEq, number, LawfulExt.beq_refl, LiteralExt.dec]
  · rw [h] at hs; cases hs

end Verif
