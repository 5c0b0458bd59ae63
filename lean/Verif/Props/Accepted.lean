import Verif.Lemmas.Accepted
import Verif.Files
import Verif.Props.Errors
import Verif.Props.Content

/-!
# C63: strict reading accepts valid documents

`Verif/Spec/Accepted.lean` says what is required of texts: numbers are numbers, times are
times, and so on.
-/

set_option linter.unusedSectionVars false
set_option linter.unusedSimpArgs false

namespace Verif

open Spec

variable {F : Type} [PyExt F] {ok : QN → Str → Prop}

/-- What the rows of a track read from the element satisfy. -/
def RowOk (e : Xml) (it : Item Cls) (v : Val Cls F) : Prop :=
  (it.attr = s% "whens" → ∀ l, v = .whens l → l.length ≤ (childrenNamed e (.q .kml (s% "when"))).length) ∧
  (it.attr = s% "coords" → ∀ l, v = .coords l → l.length = (childrenNamed e (.q .gx (s% "coord"))).length ∧
    ∀ p ∈ l, p.length = 2 ∨ p.length = 3) ∧
  (it.attr = s% "angles" → ∀ l, v = .coords l → l.length ≤ (childrenNamed e (.q .gx (s% "angles"))).length ∧
    ∀ p ∈ l, p.length ≤ 3)

/-- The children with a name that is declared once are the children with that name, in
whatever namespace they are looked for. -/
theorem findall_row {N : NsMap} (hN : StdNs N) {T : QN} {e : Xml} (ho : Ordered T e) {c : Cls} {it : Item Cls}
    (hit : it ∈ fastkml.itemsOf c) {id : Str} (hid : id ∈ it.nsIds) {q : QN}
    (hq : ∀ p ∈ partsOf 8 T, ∀ x ∈ p.elems, x.1.name = it.node → x.1 = q) :
    e.findall (nsGet N id ++ it.node) = childrenNamed e q ∨ e.findall (nsGet N id ++ it.node) = [] := by
  by_cases h : nsGet N id ++ it.node = tagOf q
  · exact .inl (by rw [h]; rfl)
  · right
    simp only [Xml.findall, List.filter_eq_nil_iff, decide_eq_true_eq]
    intro k hk he
    obtain ⟨q', t, ht, ⟨p, hp, hx⟩, -⟩ := ordered_kid ho hk
    have := hq p hp _ hx (looked_tag hN hit hid (item_node hit) (he.symm.trans ht)).2
    simp only at this
    subst this
    exact h (he.symm.trans ht)

theorem rows_ok {N : NsMap} (hN : StdNs N) {T : QN} (hT : T ∈ typesOf .Track) {e : Xml} (ho : Ordered T e)
    (hf : RowsFit F e) {it : Item Cls} (hit : it ∈ fastkml.itemsOf .Track) (hp : place it.get = .children) {id : Str}
    (hid : id ∈ it.nsIds) (kids : List (Kid Cls F)) :
    ∃ o, getKwarg fastkml it true (nsGet N id) N e kids = .ok o ∧ ∀ v, o = some v → RowOk e it v := by
  rcases rows_readers hit hp with ⟨hg, hn, ha⟩ | ⟨hg, hn, ha⟩ | ⟨hg, hn, ha⟩
  · have hrow := findall_row hN ho hit hid (q := .q .kml (s% "when")) fun p hp x hx h =>
      (rows_declared hT hp hx).1 (h.trans hn)
    have hsub : ∀ k ∈ e.findall (nsGet N id ++ it.node), ∃ s, k.text = some s ∧ Reads F .time s := by
      rcases hrow with h | h <;> rw [h]
      · exact hf.times
      · intro k hk; cases hk
    have hlen : (e.findall (nsGet N id ++ it.node)).length ≤ (childrenNamed e (.q .kml (s% "when"))).length := by
      rcases hrow with h | h <;> rw [h]
      · exact Nat.le_refl _
      · exact Nat.zero_le _
    obtain ⟨ws, hws, hl⟩ := getDts_ok_of hsub
    simp only [getKwarg, hg, hws]
    cases ws with
    | nil => exact ⟨none, rfl, by simp⟩
    | cons w ws =>
      refine ⟨_, rfl, ?_⟩
      rintro v hv
      cases hv
      refine ⟨?_, ?_, ?_⟩
      · rintro - l hl'
        cases hl'
        omega
      · intro h; rw [ha] at h; exact absurd h (by decide)
      · intro h; rw [ha] at h; exact absurd h (by decide)
  · have hrow := findall_row hN ho hit hid (q := .q .gx (s% "coord")) fun p hp x hx h =>
      (rows_declared hT hp hx).2.1 (h.trans hn)
    rcases hrow with h | h
    · obtain ⟨cs, hcs, hl, hP⟩ := getCoordArgs_ok_all (F := F) (P := fun p => p.length = 2 ∨ p.length = 3) (by simp)
        hf.positions
      simp only [getKwarg, hg, h, hcs]
      cases cs with
      | nil => exact ⟨none, rfl, by simp⟩
      | cons w ws =>
        refine ⟨_, rfl, ?_⟩
        rintro v hv
        cases hv
        refine ⟨?_, ?_, ?_⟩
        · intro h; rw [ha] at h; exact absurd h (by decide)
        · rintro - l hl'
          cases hl'
          exact ⟨hl, hP⟩
        · intro h; rw [ha] at h; exact absurd h (by decide)
    · exact ⟨none, by simp [getKwarg, hg, h, getCoordArgs, nonEmptyList, wrap], by simp⟩
  · have hrow := findall_row hN ho hit hid (q := .q .gx (s% "angles")) fun p hp x hx h =>
      (rows_declared hT hp hx).2.2 (h.trans hn)
    rcases hrow with h | h
    · obtain ⟨cs, hcs, hl, hP⟩ := getCoordArgs_ok_of (F := F) (P := fun p => p.length ≤ 3) hf.angles
      simp only [getKwarg, hg, h, hcs]
      cases cs with
      | nil => exact ⟨none, rfl, by simp⟩
      | cons w ws =>
        refine ⟨_, rfl, ?_⟩
        rintro v hv
        cases hv
        refine ⟨?_, ?_, ?_⟩
        · intro h; rw [ha] at h; exact absurd h (by decide)
        · intro h; rw [ha] at h; exact absurd h (by decide)
        · rintro - l hl'
          cases hl'
          exact ⟨hl, hP⟩
    · exact ⟨none, by simp [getKwarg, hg, h, getCoordArgs, nonEmptyList, wrap], by simp⟩

/-- Reading succeeds if all readers do. -/
theorem getKwargs_ok_of {N : NsMap} {e : Xml} {kids : List (Kid Cls F)} {c : Cls} (Q : Item Cls → Val Cls F → Prop)
    (h : ∀ it ∈ fastkml.itemsOf c, ∀ id ∈ it.nsIds, ∃ o, getKwarg fastkml it true (nsGet N id) N e kids = .ok o ∧
      ∀ v, o = some v → Q it v) :
    ∃ kw, getKwargs fastkml true N e kids (fastkml.itemsOf c) [] = .ok kw ∧
      ∀ a v, (a, v) ∈ kw → ∃ it ∈ fastkml.itemsOf c, it.attr = a ∧ Q it v := by
  cases hk : getKwargs fastkml true N e kids (fastkml.itemsOf c) [] with
  | error x =>
    obtain ⟨it, hit, ht⟩ := getKwargs_error hk
    obtain ⟨id, hid, hx⟩ := tryNs_error ht
    obtain ⟨o, ho, -⟩ := h it hit id hid
    rw [ho] at hx; cases hx
  | ok kw =>
    refine ⟨kw, rfl, ?_⟩
    obtain ⟨r, hr, rfl⟩ := (getKwargs_ok (fastkml_readOk c).attrs).mp hk
    intro a v hv
    simp only [kwOf, List.mem_filterMap, Option.map_eq_some_iff] at hv
    obtain ⟨it, hit, w, hw, he⟩ := hv
    cases he
    have := hr it hit
    rw [hw] at this
    obtain ⟨pre, id, post, hids, -, hg⟩ := tryNs_some.mp this
    obtain ⟨o, ho, hQ⟩ := h it hit id (by rw [hids]; simp)
    rw [ho] at hg
    cases hg
    exact ⟨it, hit, rfl, hQ _ rfl⟩

/-- **C63.** Strict reading accepts every element whose children are as the schemas declare
and whose texts are well-formed; the result is a well-typed object. -/
theorem C63_accepts {e : Xml} : ∀ {c : Cls} {T : QN} {ns : Str} {nss : NsMap}, T ∈ typesOf c → Ordered T e →
    mergeNs nss = mergeNs [] → Fit F (WellFormed F) e c T →
    ∃ v : Val Cls F, parse fastkml true e c ns nss = .ok v ∧ typed fastkml dim23 v = true := by
  induction e using Xml.ind with
  | h tag as tx ks ih =>
    intro c T ns nss hT ho hn hf
    have hN : StdNs (mergeNs nss) := by rw [hn]; exact stdNs_default
    rw [fit_iff] at hf
    have hexp := fastkml_expects hT
    have hclasses := (fastkml_readOk c).classes
    -- the children that are read as objects
    have hkid : ∀ it ∈ fastkml.itemsOf c, (place it.get = .object ∨ place it.get = .objects) → ∀ id ∈ it.nsIds,
        ∀ k ∈ kidsOf (parse (F := F) fastkml true) ks, ∀ d, .cls d ∈ it.classes →
        k.tag = nsGet (mergeNs nss) id ++ (fastkml.info d).tag →
        ∃ v, k.read d (nsGet (mergeNs nss) id) (mergeNs nss) = .ok v ∧ typed fastkml dim23 v = true := by
      intro it hit hp id hid k hk d hd ht
      simp only [kidsOf, List.mem_map] at hk
      obtain ⟨k', hk', rfl⟩ := hk
      simp only at ht ⊢
      obtain ⟨q, t, hkq, ⟨p, hpm, hx⟩, hok⟩ := ordered_kid ho (k := k') hk'
      have hq := (looked_tag hN hit hid (item_tag hit hd) (ht.symm.trans hkq)).1
      have he := hexp it hit
      have hd' : d ∈ clsList it := by simp only [clsList, List.mem_filterMap]; exact ⟨_, hd, rfl⟩
      have he' : (!hasQN (qnsIn it (fastkml.info d).tag) q || (decide (classFor q = some d) && hasQN (typesOf d) t &&
          !hasQN (unsupported c) q && !hasQN (rowNames c) q)) = true := by
        rcases hp with hp | hp <;>
        · simp only [expects, hp] at he
          exact List.all_eq_true.mp (List.all_eq_true.mp (List.all_eq_true.mp he d hd') p hpm) _ hx
      rw [hasQN_iff.mpr hq] at he'
      simp only [Bool.not_true, Bool.false_or, Bool.and_eq_true, decide_eq_true_eq, Bool.not_eq_true'] at he'
      obtain ⟨⟨⟨hcf, htd⟩, hu⟩, hr⟩ := he'
      have hfit := hf.children (k', fun c T => Fit F (WellFormed F) k' c T)
        (by rw [fitKids_map]; exact List.mem_map.mpr ⟨k', hk', rfl⟩) q t hkq ⟨p, hpm, hx⟩
        (fun h => by rw [hasQN_iff.mpr h] at hu; cases hu) (fun h => by rw [hasQN_iff.mpr h] at hr; cases hr)
      rw [hcf] at hfit
      exact ih k' hk' (hasQN_iff.mp htd) hok (by rw [mergeNs_idem]; exact hn) hfit
    -- every reader succeeds
    have hitem : ∀ it ∈ fastkml.itemsOf c, ∀ id ∈ it.nsIds, ∃ o, getKwarg fastkml it true (nsGet (mergeNs nss) id)
        (mergeNs nss) (.mk tag as tx ks) (kidsOf (parse (F := F) fastkml true) ks) = .ok o ∧
        ∀ v, o = some v → c = .Track → RowOk (.mk tag as tx ks) it v ∨ place it.get ≠ .children := by
      intro it hit id hid
      have he := hexp it hit
      have hother : place it.get ≠ .children → (∃ o, getKwarg fastkml it true (nsGet (mergeNs nss) id)
          (mergeNs nss) (.mk tag as tx ks) (kidsOf (parse (F := F) fastkml true) ks) = .ok o) →
          ∃ o, getKwarg fastkml it true (nsGet (mergeNs nss) id)
          (mergeNs nss) (.mk tag as tx ks) (kidsOf (parse (F := F) fastkml true) ks) = .ok o ∧
          ∀ v, o = some v → c = .Track → RowOk (.mk tag as tx ks) it v ∨ place it.get ≠ .children :=
        fun h ⟨o, ho⟩ => ⟨o, ho, fun _ _ _ => .inr h⟩
      cases hp : place it.get with
      | text =>
        refine hp ▸ hother (by rw [hp]; decide) ?_
        by_cases hg : it.get = .nodeText
        · exact ⟨_, by simp only [getKwarg, hg]; rfl⟩
        · have hg' : it.get = .coordinates := by
            revert hp hg
            cases it.get <;> simp [place]
          simp only [expects, hp, Bool.or_eq_true, decide_eq_true_eq] at he
          have hc := he.resolve_left hg
          simp only [getKwarg, hg', getCoordinates, Xml.text]
          cases tx with
          | none => exact ⟨none, rfl⟩
          | some s =>
            obtain ⟨l, hl, -⟩ := hf.coords hc s rfl
            exact ⟨_, by simp only [hl, wrap]; rfl⟩
      | child =>
        refine hp ▸ hother (by rw [hp]; decide) ?_
        refine scalar_ok (by simp [scalar, hp]) (hclasses it hit) _ ?_
        intro s hs
        simp only [itemText, hp, childText_find] at hs
        cases hfd : (Xml.mk tag as tx ks).find (nsGet (mergeNs nss) id ++ it.node) with
        | none => rw [hfd] at hs; cases hs
        | some k =>
          rw [hfd] at hs
          have hk : k ∈ ks := List.mem_of_find?_eq_some hfd
          have ht : k.tag = nsGet (mergeNs nss) id ++ it.node := by simpa using List.find?_some hfd
          obtain ⟨q, t, hkq, ⟨p, hpm, hx⟩, hok⟩ := ordered_kid ho (k := k) hk
          have hq := (looked_tag hN hit hid (item_node hit) (ht.symm.trans hkq)).1
          simp only [expects, hp] at he
          have he' := List.all_eq_true.mp (List.all_eq_true.mp he p hpm) _ hx
          simp only [hasQN_iff.mpr hq, Bool.not_true, Bool.false_or, Bool.and_eq_true, decide_eq_true_eq,
            Bool.not_eq_true'] at he'
          obtain ⟨⟨⟨hcf, hu⟩, hr⟩, hkf⟩ := he'
          have hfit := hf.children (k, fun c T => Fit F (WellFormed F) k c T)
            (by rw [fitKids_map]; exact List.mem_map.mpr ⟨k, hk, rfl⟩) q t hkq ⟨p, hpm, hx⟩
            (fun h => by rw [hasQN_iff.mpr h] at hu; cases hu) (fun h => by rw [hasQN_iff.mpr h] at hr; cases hr)
          rw [hcf] at hfit
          exact denotes_reads hkf (hfit s hs)
      | attr =>
        refine hp ▸ hother (by rw [hp]; decide) ?_
        refine scalar_ok (by simp [scalar, hp]) (hclasses it hit) _ ?_
        intro s hs
        simp only [itemText, hp] at hs
        simp only [expects, hp, Bool.or_eq_true, decide_eq_true_eq] at he
        rcases he with hg | he
        · exact ⟨.str s, by simp [denotes, hg]⟩
        · obtain ⟨a, ha, h⟩ := List.any_eq_true.mp he
          simp only [Bool.and_eq_true, sameStr_iff, Bool.not_eq_true'] at h
          obtain ⟨⟨han, hu⟩, hkf⟩ := h
          have hpre : nsGet (mergeNs nss) id = [] ∨ ∃ x, nsGet (mergeNs nss) id = uri x := by
            rcases item_ids hit hid with ⟨x, hx⟩ | rfl
            · exact .inr ⟨x, (hN id).1 x hx⟩
            · exact .inl ((hN []).2 rfl)
          have hs' : (Xml.mk tag as tx ks).get (nsGet (mergeNs nss) id ++ a.name) = some s ∧ s ≠ [] := by
            simp only [Xml.get, han]
            cases hd : dget (nsGet (mergeNs nss) id ++ it.node) (Xml.mk tag as tx ks).attrs with
            | none => rw [hd] at hs; cases hs
            | some u =>
              rw [hd] at hs
              simp only [given] at hs
              split at hs
              · cases hs
              · rename_i hne; cases hs; exact ⟨rfl, hne⟩
          exact denotes_reads hkf (hf.attributes a ha (fun h => by
            have : (unsupportedAttrs c).any (sameStr a.name) = true :=
              List.any_eq_true.mpr ⟨_, h, sameStr_iff.mpr rfl⟩
            rw [this] at hu; cases hu) _ hpre s hs'.1 hs'.2)
      | object =>
        refine hp ▸ hother (by rw [hp]; decide) ?_
        have hg : it.get = .xmlSub := by cases h : it.get <;> simp only [h, place, reduceCtorEq] at hp ⊢
        simp only [getKwarg, hg]
        exact getXmlSub_ok_of (classes_cls (hclasses it hit) (.inl hg)) fun k hk d hd ht =>
          (hkid it hit (.inl hp) id hid k hk d hd ht).imp fun _ h => h.1
      | objects =>
        refine hp ▸ hother (by rw [hp]; decide) ?_
        have hg : it.get = .xmlSubList := by cases h : it.get <;> simp only [h, place, reduceCtorEq] at hp ⊢
        obtain ⟨vs, hvs⟩ := getXmlSubList_ok_of (classes_cls (hclasses it hit) (.inr hg)) fun k hk d hd ht =>
          (hkid it hit (.inr hp) id hid k hk d hd ht).imp fun _ h => h.1
        exact ⟨_, by simp only [getKwarg, hg, hvs]; rfl⟩
      | children =>
        simp only [expects, hp, decide_eq_true_eq] at he
        subst he
        obtain ⟨o, ho', hr⟩ := rows_ok hN hT ho (hf.rows rfl) hit hp hid (kidsOf (parse (F := F) fastkml true) ks)
        exact ⟨o, ho', fun v hv _ => .inl (hr v hv)⟩
    -- what the readers return
    obtain ⟨kw, hkw, hQ⟩ := getKwargs_ok_of (c := c) (e := .mk tag as tx ks) (N := mergeNs nss)
      (kids := kidsOf (parse (F := F) fastkml true) ks)
      (fun it v => ValOk fastkml dim23 it v ∧ (c = .Track → RowOk (.mk tag as tx ks) it v ∨ place it.get ≠ .children)) (by
        intro it hit id hid
        obtain ⟨o, ho', hr⟩ := hitem it hit id hid
        refine ⟨o, ho', ?_⟩
        rintro v rfl
        refine ⟨getKwarg_valOk_local (P := dim23) ?_ ?_ ho', hr v rfl⟩
        · intro hg k hk d hd ht w hw
          have hp : place it.get = .object ∨ place it.get = .objects := by
            rcases hg with hg | hg <;> simp [hg, place]
          obtain ⟨w', hw', ht'⟩ := hkid it hit hp id hid k hk d hd ht
          rw [hw] at hw'
          cases hw'
          simp only [kidsOf, List.mem_map] at hk
          obtain ⟨k', hk', rfl⟩ := hk
          exact ⟨ht', (parse_typed fastkml_readOk hw).2⟩
        · intro hg t cs ht hcs
          have he := hexp it hit
          simp only [expects, show place it.get = .text by rw [hg]; rfl, Bool.or_eq_true, decide_eq_true_eq] at he
          obtain ⟨l, hl, hd⟩ := hf.coords (he.resolve_left (by rw [hg]; decide)) t ht
          rw [hcs] at hl
          cases hl
          simpa [dim23] using hd)
    have hkwOk : KwOk fastkml dim23 (fastkml.itemsOf c) kw := by
      intro a v hv
      obtain ⟨it, hit, ha, hq⟩ := hQ a v hv
      exact ⟨it, hit, ha, hq.1⟩
    cases hc : construct fastkml c ns (mergeNs nss) kw with
    | ok v =>
      exact ⟨v, by simp only [parse_eq, parseStep, Xml.kids, hkw, hc], (construct_typed (fastkml_readOk c) hkwOk hc).1⟩
    | error x =>
      exfalso
      rcases construct_error fastkml_boolOk (fastkml_readOk c) hkwOk hc with ⟨-, h | ⟨hs, hti⟩⟩ | ⟨-, hs, hid⟩
      · exact not_typeErr_dim23 h
      · have hct : c = .Track := by
          have key : ∀ c ∈ Cls.all, decide ((fastkml.info c).special = .track → c = .Track) = true := by decide +kernel
          exact of_decide_eq_true (key c (Cls.mem_all c)) hs
        subst hct
        obtain ⟨h0, h1, h2, h3⟩ := track_args (fastkml_readOk .Track) hs hkwOk
        have hrow : ∀ a, a ∈ [s% "whens", s% "coords", s% "angles"] → ∀ v, kwGet a kw = v → v ≠ .none →
            ∃ it : Item Cls, it.attr = a ∧ RowOk (.mk tag as tx ks) it v := by
          intro a ha v hv hne
          have hd : dget a kw = some v := by
            unfold kwGet at hv
            cases hd : dget a kw with
            | none => rw [hd] at hv; exact absurd hv.symm hne
            | some w => rw [hd] at hv; rw [← hv]; rfl
          obtain ⟨it, hit, hat, -, hq⟩ := hQ a v (dget_mem hd)
          refine ⟨it, hat, (hq rfl).resolve_right ?_⟩
          have key : ((fastkml.itemsOf .Track).all fun it => !([s% "whens", s% "coords", s% "angles"].any (sameStr it.attr)) ||
              decide (place it.get = .children)) = true := by decide +kernel
          have := List.all_eq_true.mp key it hit
          simp only [Bool.or_eq_true, Bool.not_eq_true', decide_eq_true_eq] at this
          rcases this with h | h
          · have : [s% "whens", s% "coords", s% "angles"].any (sameStr it.attr) = true :=
              List.any_eq_true.mpr ⟨a, ha, sameStr_iff.mpr hat⟩
            rw [this] at h; cases h
          · exact fun hc => hc h
        have hrf := hf.rows rfl
        have hno : ∀ (ws : List (Option KmlDateTime)) (cs as' : List (Pt F)),
            (kwGet (s% "whens") kw = .none ∧ ws = [] ∨ kwGet (s% "whens") kw = .whens ws) →
            (kwGet (s% "coords") kw = .none ∧ cs = [] ∨ kwGet (s% "coords") kw = .coords cs) →
            (kwGet (s% "angles") kw = .none ∧ as' = [] ∨ kwGet (s% "angles") kw = .coords as') → False := by
          intro ws cs as' g1 g2 g3
          rw [trackItems_eq h0 g1 g2 g3] at hti
          split at hti
          · rename_i hne
            rcases g1 with ⟨-, rfl⟩ | g1
            · exact hne.1 rfl
            rcases g2 with ⟨-, rfl⟩ | g2
            · exact hne.2 rfl
            obtain ⟨i1, a1, r1⟩ := hrow (s% "whens") (by simp) _ g1 (by simp)
            obtain ⟨i2, a2, r2⟩ := hrow (s% "coords") (by simp) _ g2 (by simp)
            have b1 := r1.1 a1 ws rfl
            have b2 := r2.2.1 a2 cs rfl
            have b3 : as'.length ≤ (childrenNamed (.mk tag as tx ks) (.q .gx (s% "angles"))).length ∧
                ∀ p ∈ as', p.length ≤ 3 := by
              rcases g3 with ⟨-, rfl⟩ | g3
              · exact ⟨Nat.zero_le _, by simp⟩
              · obtain ⟨i3, a3, r3⟩ := hrow (s% "angles") (by simp) _ g3 (by simp)
                exact r3.2.2 a3 as' rfl
            have e1 := hrf.enough.1
            have e2 := hrf.enough.2
            have : ∃ rs : List (TrackItem F), Rows ws cs as' rs := by
              refine ⟨cs.zipIdx.map fun p => ⟨ws[p.2]?.join, p.1, some (anglesFrom (as'[p.2]?.getD []))⟩, by simp, ?_⟩
              intro k c hk
              simp [hk]
            obtain ⟨rs, hrs⟩ := this
            rw [zipItems_iff.mpr ⟨by omega, by omega, b2.2, b3.2, hrs⟩] at hti
            cases hti
          · cases hti
        have g1 : ∃ ws, kwGet (s% "whens") kw = .none ∧ ws = [] ∨ kwGet (s% "whens") kw = .whens ws := by
          rcases h1 with h | ⟨l, h⟩
          · exact ⟨[], Or.inl ⟨h, rfl⟩⟩
          · exact ⟨l, Or.inr h⟩
        have g2 : ∃ ws, kwGet (s% "coords") kw = .none ∧ ws = [] ∨ kwGet (s% "coords") kw = .coords ws := by
          rcases h2 with h | ⟨l, h⟩
          · exact ⟨[], Or.inl ⟨h, rfl⟩⟩
          · exact ⟨l, Or.inr h⟩
        have g3 : ∃ ws, kwGet (s% "angles") kw = .none ∧ ws = [] ∨ kwGet (s% "angles") kw = .coords ws := by
          rcases h3 with h | ⟨l, h⟩
          · exact ⟨[], Or.inl ⟨h, rfl⟩⟩
          · exact ⟨l, Or.inr h⟩
        obtain ⟨ws, g1⟩ := g1
        obtain ⟨cs, g2⟩ := g2
        obtain ⟨as', g3⟩ := g3
        exact hno ws cs as' g1 g2 g3
      · have hcs : c = .Schema := by
          have key : ∀ c ∈ Cls.all, decide ((fastkml.info c).special = .schema → c = .Schema) = true := by decide +kernel
          exact of_decide_eq_true (key c (Cls.mem_all c)) hs
        subst hcs
        obtain ⟨s, hs', hne⟩ := hf.schema rfl
        have hca := (schema_cause (fastkml_readOk .Schema) hkw hs hid).2
        have key : ((fastkml.itemsOf .Schema).any fun it => sameStr it.attr (s% "id") && sameStr it.node (s% "id") &&
            it.nsIds.any (sameStr [])) = true := by decide +kernel
        obtain ⟨it, hit, hk⟩ := List.any_eq_true.mp key
        simp only [Bool.and_eq_true, sameStr_iff] at hk
        refine hne (hca it hit hk.1.1 [] (mem_unlist hk.2) s ?_)
        rw [(hN []).2 rfl, hk.1.2]
        exact hs'

/-! ## Valid documents -/

/-- The names of XML attributes are distinct, and have no namespace. -/
theorem attr_names {c : Cls} {T : QN} (hT : T ∈ typesOf c) : ((typeAttrs 8 T).map (·.name)).Nodup ∧
    ∀ a ∈ typeAttrs 8 T, a.name.head? ≠ some '{' := by
  have key : ∀ c ∈ Cls.all, ((typesOf c).all fun T => decide ((typeAttrs 8 T).map (·.name)).Nodup &&
      (typeAttrs 8 T).all fun a => decide (a.name.head? ≠ some '{')) = true := by decide +kernel
  have := List.all_eq_true.mp (key c (Cls.mem_all c)) T hT
  simp only [Bool.and_eq_true, decide_eq_true_eq, List.all_eq_true] at this
  exact this

/-- The values of enumerations have no surrounding whitespace. -/
theorem enum_trimmed {t : QN} {e : XEnum} (h : enumDecl t = some e) {s : Str} (hs : s ∈ e.values) : strip s = s := by
  have key : (xsdEnums.all fun e => e.values.all fun s => decide (strip s = s)) = true := by decide +kernel
  have := List.all_eq_true.mp (List.all_eq_true.mp key e (List.mem_of_find?_eq_some h)) s hs
  simpa using this

/-- Enumerations are simple types. -/
theorem enum_simple {t : QN} {e : XEnum} (h : enumDecl t = some e) : typeDecl t = none := by
  have key : (xsdEnums.all fun e => decide (typeDecl e.name = none)) = true := by decide +kernel
  have h1 := List.all_eq_true.mp key e (List.mem_of_find?_eq_some h)
  have h2 : e.name = t := by
    have := List.find?_some h
    exact QN.same_iff.mp this
  rw [h2] at h1
  simpa using h1

/-- A valid text is well-formed. -/
theorem reads_of_textOk {c : Cls} {n : Str} {t : QN} {s u : Str} (hu : u = s ∨ u = strip s)
    (hr : WellFormedNumber F c n (some t) u) (hs : textOk t s) : Reads F (kindOf c n (some t)) u := by
  by_cases hc : c = .Lod ∨ c = .atom_Link ∨ c = .SimpleField
  · simp only [WellFormedNumber] at hr
    split at hr
    · exact hr
    · exact hr
    · exact hr hc
  · have h1 : c ≠ .Lod := fun h => hc (.inl h)
    have h2 : c ≠ .atom_Link := fun h => hc (.inr (.inl h))
    have h3 : c ≠ .SimpleField := fun h => hc (.inr (.inr h))
    simp only [textOk] at hs
    simp only [WellFormedNumber] at hr
    simp only [kindOf, h1, h2, h3, if_false, false_and] at hr ⊢
    cases he : enumDecl t with
    | some e =>
      rw [he] at hs
      simp only [he] at hr ⊢
      have : u = s := by
        rcases hu with rfl | rfl
        · rfl
        · exact enum_trimmed he hs
      rw [this]
      exact hs
    | none =>
      rw [he] at hs
      simp only [he] at hr ⊢
      by_cases hb : t = .q .xs (s% "boolean")
      · simp only [hb, if_true, List.mem_cons, List.not_mem_nil, or_false] at hs ⊢
        rcases hs with rfl | rfl | rfl | rfl <;> rcases hu with rfl | rfl <;> (simp only [Reads]; decide +kernel)
      · simp only [hb, if_false] at hs hr ⊢
        by_cases hi : t = .q .xs (s% "int") ∨ t = .q .xs (s% "integer")
        · simp only [hi, if_true] at hs ⊢
          obtain ⟨i, rfl⟩ := hs
          refine ⟨i, ?_⟩
          rcases hu with rfl | rfl
          · exact intParse_intRepr i
          · rw [strip_noSpace (intRepr_noSpace i)]; exact intParse_intRepr i
        · simp only [hi, if_false] at hs hr ⊢
          by_cases hfl : t ∈ floatTypes
          · simp only [hfl, if_true] at hr ⊢
            exact hr
          · simp only [hfl, if_false] at hr ⊢
            by_cases hd : t = .q .kml (s% "dateTimeType")
            · simp only [hd, if_true] at hr ⊢
              exact hr
            · simp only [hd, if_false]
              trivial

/-- Complex types hold texts. -/
theorem kind_complex {c : Cls} {n : Str} {t : QN} {ty : XType} (h : typeDecl t = some ty)
    (hc : ¬ (c = .Lod ∨ c = .atom_Link ∨ c = .SimpleField)) : kindOf c n (some t) = .text := by
  have h1 : c ≠ .Lod := fun h => hc (.inl h)
  have h2 : c ≠ .atom_Link := fun h => hc (.inr (.inl h))
  have h3 : c ≠ .SimpleField := fun h => hc (.inr (.inr h))
  simp only [kindOf, h1, h2, h3, if_false, false_and]
  cases he : enumDecl t with
  | some e => rw [enum_simple he] at h; cases h
  | none =>
    have key : ∀ t ∈ [.q .xs (s% "boolean"), .q .xs (s% "int"), .q .xs (s% "integer"), .q .kml (s% "dateTimeType")] ++
        floatTypes, typeDecl t = none := by decide +kernel
    have hno : t ∉ [.q .xs (s% "boolean"), .q .xs (s% "int"), .q .xs (s% "integer"), .q .kml (s% "dateTimeType")] ++
        floatTypes := by
      intro hm
      rw [key t hm] at h
      cases h
    simp only [List.mem_append, List.mem_cons, List.not_mem_nil, or_false, not_or] at hno
    obtain ⟨⟨n1, n2, n3, n4⟩, n5⟩ := hno
    simp [n1, n2, n3, n4, n5]

theorem validAll_get {qs : List Typed} {ks : List Xml} (h : ValidAll ok qs ks) : ∀ k ∈ ks, ∃ q t, (q, some t) ∈ qs ∧
    k.tag = tagOf q ∧ Valid ok t k := by
  induction ks generalizing qs with
  | nil => intro k hk; cases hk
  | cons k' ks ih =>
    intro k hk
    cases h with
    | cons hn hv h =>
      rcases List.mem_cons.mp hk with rfl | hk
      · exact ⟨_, _, List.mem_cons_self, hn, hv⟩
      · obtain ⟨q, t, hx, he⟩ := ih h k hk
        exact ⟨q, t, List.mem_cons_of_mem _ hx, he⟩

/-- Every child of a valid element is declared. -/
theorem valid_kid {T : QN} {e : Xml} (h : Valid ok T e) {k : Xml} (hk : k ∈ e.kids) :
    ∃ q t, k.tag = tagOf q ∧ (∃ p ∈ partsOf 8 T, (q, some t) ∈ p.elems) ∧ Valid ok t k := by
  cases h with
  | simple hs ha hk' ht => rw [hk'] at hk; cases hk
  | complex hs ha hr hx hq hv =>
    obtain ⟨q, t, hm, ht, ho⟩ := validAll_get hv k hk
    obtain ⟨p, hp, hx⟩ := accepts_mem hq _ hm
    exact ⟨q, t, ht, ⟨p, hp, hx⟩, ho⟩

/-- A name is declared with one type. -/
theorem unique_types {c : Cls} {T : QN} (hT : T ∈ typesOf c) {p p' : Part} (hp : p ∈ partsOf 8 T) {q : QN} {t t' : Option QN}
    (hx : (q, t) ∈ p.elems) (hp' : p' ∈ partsOf 8 T) (hx' : (q, t') ∈ p'.elems) : t = t' := by
  have key : ∀ c ∈ Cls.all, ((typesOf c).all fun T => (partsOf 8 T).all fun p => p.elems.all fun x =>
      (partsOf 8 T).all fun p' => p'.elems.all fun x' => !x.1.same x'.1 || decide (x.2 = x'.2)) = true := by decide +kernel
  have := List.all_eq_true.mp (List.all_eq_true.mp (List.all_eq_true.mp (List.all_eq_true.mp (List.all_eq_true.mp
    (key c (Cls.mem_all c)) T hT) p hp) _ hx) p' hp') _ hx'
  simpa [QN.same_iff.mpr rfl] using this

/-- No XML attribute is a boolean. -/
theorem attr_types {c : Cls} {T : QN} (hT : T ∈ typesOf c) : ∀ a ∈ typeAttrs 8 T, a.type ≠ some (.q .xs (s% "boolean")) := by
  have key : ∀ c ∈ Cls.all, ((typesOf c).all fun T => (typeAttrs 8 T).all fun a =>
      decide (a.type ≠ some (.q .xs (s% "boolean")))) = true := by decide +kernel
  have := List.all_eq_true.mp (key c (Cls.mem_all c)) T hT
  simpa only [List.all_eq_true, decide_eq_true_eq] using this

/-- Valid texts that obey the rule are well-formed. -/
structure Yields (F : Type) [PyExt F] (ok : QN → Str → Prop) (R : TextRule) : Prop where
  child : ∀ c n t s, ok t s → R c n (some t) (strip s) → Reads F (kindOf c n (some t)) (strip s)
  attr : ∀ c n t s, t ≠ .q .xs (s% "boolean") → ok t s → R c n (some t) s → Reads F (kindOf c n (some t)) s
  special : ∀ c n t s, c = .Lod ∨ c = .atom_Link ∨ c = .SimpleField → R c n t s → Reads F (kindOf c n t) s

theorem yields_textOk : Yields F textOk (WellFormedNumber F) where
  child c n t s hs hr := reads_of_textOk (.inr rfl) hr hs
  attr c n t s _ hs hr := reads_of_textOk (.inl rfl) hr hs
  special c n t s hc hr := by
    simp only [WellFormedNumber] at hr
    split at hr
    · exact hr
    · exact hr
    · exact hr hc

/-- The texts of valid elements are well-formed if they obey the rule. -/
theorem fit_of_yields {R : TextRule} (hR : Yields F ok R) {e : Xml} : ∀ {c : Cls} {T : QN}, T ∈ typesOf c → Valid ok T e →
    Fit F R e c T → Fit F (WellFormed F) e c T := by
  induction e using Xml.ind with
  | h tag as tx ks ih =>
    intro c T hT hv hf
    rw [fit_iff] at hf ⊢
    refine ⟨?_, hf.coords, hf.schema, hf.rows, ?_⟩
    · intro a ha hu p hp s hs hne
      have hr := hf.attributes a ha hu p hp s hs hne
      cases hv with
      | simple hd hattr hk ht =>
        simp only [Xml.attrs] at hattr
        subst hattr
        cases hs
      | complex hd hattr hreq hx hq hk =>
        obtain ⟨a', ha', hname, htx⟩ := hattr _ _ hs
        obtain ⟨hnd, hbr⟩ := attr_names hT
        have hp0 : p = [] := by
          rcases hp with rfl | ⟨x, rfl⟩
          · rfl
          · exfalso
            refine hbr a' ha' ?_
            rw [hname]
            cases x <;> rfl
        subst hp0
        have : a' = a := injOn_of_nodup_map hnd ha' ha (by simpa using hname)
        subst this
        cases hty : a'.type with
        | some t =>
          rw [hty] at hr
          exact hR.attr _ _ _ _ (fun h => attr_types hT a' ha' (hty.trans (by rw [h]))) (htx t hty) hr
        | none =>
          rw [hty] at hr
          by_cases hc : c = .Lod ∨ c = .atom_Link ∨ c = .SimpleField
          · exact hR.special _ _ _ _ hc hr
          · have h1 : c ≠ .Lod := fun h => hc (.inl h)
            have h2 : c ≠ .atom_Link := fun h => hc (.inr (.inl h))
            have h3 : c ≠ .SimpleField := fun h => hc (.inr (.inr h))
            simp only [WellFormed, kindOf, h1, h2, h3, if_false, false_and, Reads]
    · intro k hk q t hkq hdecl hu hrow
      rw [fitKids_map] at hk
      obtain ⟨k', hk', rfl⟩ := List.mem_map.mp hk
      have hc := hf.children (k', fun c T => Fit F R k' c T)
        (by rw [fitKids_map]; exact List.mem_map.mpr ⟨k', hk', rfl⟩) q t hkq hdecl hu hrow
      simp only at hkq hc ⊢
      have hvk : Valid ok t k' := by
        obtain ⟨p, hp, hx⟩ := hdecl
        obtain ⟨q', t', hkq', ⟨p', hp', hx'⟩, hv'⟩ := valid_kid hv (k := k') hk'
        have hqq : q = q' := tagOf_inj (hkq.symm.trans hkq')
        subst hqq
        have := unique_types hT hp hx hp' hx'
        cases this
        exact hv'
      cases hcf : classFor q with
      | some d =>
        rw [hcf] at hc
        simp only at hc ⊢
        obtain ⟨p, hp, hx⟩ := hdecl
        have hco : childOk c (partsOf 8 T) q t = true :=
          List.all_eq_true.mp (List.all_eq_true.mp (fastkml_childrenOk hT) p hp) _ hx
        simp only [childOk, Bool.or_eq_true, hasQN_iff, hu, hrow, false_or] at hco
        obtain ⟨it, -, hr⟩ := List.any_eq_true.mp hco
        simp only [readsChild, hcf, Bool.and_eq_true, hasQN_iff] at hr
        exact ih k' hk' hr.2.1.2 hvk hc
      | none =>
        rw [hcf] at hc
        simp only at hc ⊢
        intro s hs
        have hr := hc s hs
        by_cases hsp : c = .Lod ∨ c = .atom_Link ∨ c = .SimpleField
        · exact hR.special _ _ _ _ hsp hr
        · cases hvk with
          | simple hd hattr hk ht =>
            cases hkt : k'.text with
            | none => rw [hkt] at hs; cases hs
            | some u =>
              rw [hkt] at hs
              simp only [trimmed] at hs
              split at hs
              · cases hs
              · cases hs
                exact hR.child _ _ _ _ (ht u hkt) hr
          | complex hd _ _ _ _ _ =>
            simp only [WellFormed, kind_complex hd hsp, Reads]

theorem fit_of_valid {e : Xml} {c : Cls} {T : QN} (hT : T ∈ typesOf c) (hv : Valid textOk T e)
    (hf : Fit F (WellFormedNumber F) e c T) : Fit F (WellFormed F) e c T := fit_of_yields yields_textOk hT hv hf

theorem accepted_of {c : Cls} {T : QN} (hc : elemType c = some T) {e : Xml} (he : Valid ok T e)
    (hf : Fit F (WellFormed F) e c T) (ns : Option Str) :
    ∃ v : Val Cls F, fromElement fastkml true c ns [] e = .ok v ∧ Kept e c T v ∧ ∀ o, ∃ x, ser fastkml o v = .ok x := by
  have hT : T ∈ typesOf c := by simp [typesOf, hc]
  obtain ⟨v, hv, ht⟩ := C63_accepts (ns := ns.getD (nsGet (mergeNs []) (fastkml.info c).nsid)) (nss := mergeNs []) hT
    (ordered_of_valid he) (mergeNs_idem []) hf
  refine ⟨v, hv, C61_from_string hc he (ns := ns) hv, fun o => ?_⟩
  obtain ⟨-, attrs, rfl⟩ := parse_typed fastkml_readOk hv
  exact C54_succeeds ht o

theorem accepted_kml {root : Xml} {T : QN} (hT : elemType .KML = some T) (hr : root.tag = tagOf (elemName .KML))
    (he : Valid ok T root) (hf : Fit F (WellFormed F) root .KML T) :
    ∃ v : Val Cls F, parseRoot none none true root = .ok v ∧ Kept root .KML T v ∧ ∀ o, ∃ x, ser fastkml o v = .ok x := by
  have hT' : T ∈ typesOf .KML := by simp [typesOf, hT]
  have hn : detectNs none root = uri .kml := by
    simp only [detectNs, hr]
    decide +kernel
  have hm : mergeNs (mergeNs (parseNss (uri .kml) [])) = mergeNs [] := by decide +kernel
  obtain ⟨v, hv, ht⟩ := C63_accepts (ns := uri .kml) hT' (ordered_of_valid he) hm hf
  have hp : parseRoot none none true root = .ok v := by
    simp only [parseRoot, hn]
    exact hv
  refine ⟨v, hp, C61_kept hT' (ordered_of_valid he) hm hv, fun o => ?_⟩
  obtain ⟨-, attrs, rfl⟩ := parse_typed fastkml_readOk hv
  exact C54_succeeds ht o

/-- **C63** for `from_string`, with the names of the schemas: strict reading of a valid
element, in which numbers, times and coordinates can be read, as the class of that name
succeeds, keeps all of the content that is supported, and the result can be written. -/
theorem C63_valid {c : Cls} {T : QN} (hc : elemType c = some T) {e : Xml} (he : Valid textOk T e)
    (hf : Fit F (WellFormedNumber F) e c T) (ns : Option Str) :
    ∃ v : Val Cls F, fromElement fastkml true c ns [] e = .ok v ∧ Kept e c T v ∧ ∀ o, ∃ x, ser fastkml o v = .ok x :=
  accepted_of hc he (fit_of_valid (by simp [typesOf, hc]) he hf) ns

/-- **C63** for `KML.parse`: a valid document, in which numbers, times and coordinates can
be read, is accepted in strict mode. -/
theorem C63_kml {root : Xml} {T : QN} (hT : elemType .KML = some T) (hr : root.tag = tagOf (elemName .KML))
    (he : Valid textOk T root) (hf : Fit F (WellFormedNumber F) root .KML T) :
    ∃ v : Val Cls F, parseRoot none none true root = .ok v ∧ Kept root .KML T v ∧ ∀ o, ∃ x, ser fastkml o v = .ok x :=
  accepted_kml hT hr he (fit_of_valid (by simp [typesOf, hT]) he hf)

/-! ## Concrete documents -/

/-- `textOk`, computed. -/
def textOkB (t : QN) (s : Str) : Bool :=
  match enumDecl t with
  | some e => decide (s ∈ e.values)
  | none =>
    if t = .q .xs (s% "boolean") then decide (s ∈ [s% "true", s% "false", s% "0", s% "1"])
    else if t = .q .xs (s% "int") ∨ t = .q .xs (s% "integer") then match intParse s with
      | some i => decide (s = intRepr i)
      | none => false
    else true

theorem textOkB_sound {t : QN} {s : Str} (h : textOkB t s = true) : textOk t s := by
  simp only [textOkB] at h
  simp only [textOk]
  split at h
  · rename_i e he; rw [he]; exact of_decide_eq_true h
  · rename_i he
    rw [he]
    simp only
    split at h
    · rename_i hb; rw [if_pos hb]; exact of_decide_eq_true h
    · rename_i hb
      rw [if_neg hb]
      split at h
      · rename_i hi
        rw [if_pos hi]
        split at h
        · rename_i i _; exact ⟨i, of_decide_eq_true h⟩
        · cases h
      · rename_i hi; rw [if_neg hi]; trivial

/-- The XML attributes are as declared. -/
def attrsValidB (okB : QN → Str → Bool) (T : QN) (ty : XType) (e : Xml) : Bool :=
  (e.attrs.all fun ks => (typeAttrs 8 T).any fun a => sameStr a.name ks.1 && match a.type with
    | none => true
    | some t => okB t ks.2) &&
  ((typeAttrs 8 T).all fun a => !a.required || (e.get a.name).isSome) && (ty.text || e.text.isNone)

/-- `Valid`, computed, to the given depth. -/
def validB (okB : QN → Str → Bool) : Nat → QN → Xml → Bool
  | 0, _, _ => false
  | n + 1, T, e => match typeDecl T with
    | none => e.attrs.isEmpty && e.kids.isEmpty && match e.text with
      | none => true
      | some s => okB T s
    | some ty => attrsValidB okB T ty e && match assign (partsOf 8 T) e.kids with
      | none => false
      | some qs => (qs.zip e.kids).all fun xk => match xk.1.2 with
        | none => false
        | some t => validB okB n t xk.2

theorem validB_sound {okB : QN → Str → Bool} (hok : ∀ {t s}, okB t s = true → ok t s) {n : Nat} :
    ∀ {T : QN} {e : Xml}, validB okB n T e = true → Valid ok T e := by
  induction n with
  | zero => intro T e h; cases h
  | succ n ih =>
    intro T e h
    simp only [validB] at h
    split at h
    · rename_i hd
      simp only [Bool.and_eq_true, List.isEmpty_iff] at h
      refine .simple hd h.1.1 h.1.2 ?_
      intro s hs
      have := h.2
      rw [hs] at this
      exact hok this
    · rename_i ty hd
      simp only [Bool.and_eq_true, attrsValidB] at h
      obtain ⟨⟨⟨h1, h2⟩, h3⟩, h⟩ := h
      split at h
      · cases h
      · rename_i qs hqs
        obtain ⟨ha, hb⟩ := assign_sound hqs
        refine .complex hd ?_ ?_ ?_ ha ?_
        · intro k s hk
          obtain ⟨a, ha, h⟩ := List.any_eq_true.mp (List.all_eq_true.mp h1 (k, s) (dget_mem hk))
          simp only [Bool.and_eq_true, sameStr_iff] at h
          refine ⟨a, ha, h.1, ?_⟩
          intro t ht
          have := h.2
          rw [ht] at this
          exact hok this
        · intro a ha hr
          have := List.all_eq_true.mp h2 a ha
          rw [hr] at this
          intro hc
          rw [hc] at this
          cases this
        · intro ht
          rw [ht] at h3
          simpa using h3
        · have : ∀ {qs : List Typed} {ks : List Xml}, All2 (fun x k => k.tag = tagOf x.1) qs ks →
              ((qs.zip ks).all fun xk => match xk.1.2 with
                | none => false
                | some t => validB okB n t xk.2) = true → ValidAll ok qs ks := by
            intro qs ks h2
            induction h2 with
            | nil => intro _; exact .nil
            | @cons x k qs ks hx h2 ih2 =>
              intro hz
              simp only [List.zip_cons_cons, List.all_cons, Bool.and_eq_true] at hz
              obtain ⟨q, t⟩ := x
              cases t with
              | none => cases hz.1
              | some t => exact .cons hx (ih hz.1) (ih2 hz.2)
          exact this hb h

/-- `Reads`, computed. -/
def readsB (F : Type) [PyExt F] : Kind → Str → Bool
  | .text, _ => true
  | .bool, s => decide (s ∈ [s% "1", s% "true", s% "0", s% "false"])
  | .int, s => (intParse s).isSome
  | .float, s => (PyExt.parse s : Option F).isSome
  | .time, s => (KmlDateTime.parse (PyExt.arrowGet F) s).isSome
  | .choice l, s => decide (s ∈ l)

theorem readsB_sound {K : Kind} {s : Str} (h : readsB F K s = true) : Reads F K s := by
  cases K <;> simp only [readsB, Reads, Option.isSome_iff_exists, decide_eq_true_eq] at h ⊢ <;> exact h

/-- The rows of a track match. -/
def rowsFitB (F : Type) [PyExt F] (e : Xml) : Bool :=
  ((childrenNamed e (.q .kml (s% "when"))).all fun k => match k.text with
    | none => false
    | some s => readsB F .time s) &&
  ((childrenNamed e (.q .gx (s% "coord"))).all fun k => match k.text with
    | none => false
    | some s => match (floatsOf (splitWs s) : Option (Pt F)) with
      | none => false
      | some p => decide (p.length = 2 ∨ p.length = 3)) &&
  ((childrenNamed e (.q .gx (s% "angles"))).all fun k => match k.text with
    | none => true
    | some s => match (floatsOf (splitWs s) : Option (Pt F)) with
      | none => false
      | some p => decide (p.length ≤ 3)) &&
  decide ((childrenNamed e (.q .kml (s% "when"))).length ≤ (childrenNamed e (.q .gx (s% "coord"))).length ∧
    (childrenNamed e (.q .gx (s% "angles"))).length ≤ (childrenNamed e (.q .gx (s% "coord"))).length)

theorem rowsFitB_sound {e : Xml} (h : rowsFitB F e = true) : RowsFit F e := by
  simp only [rowsFitB, Bool.and_eq_true, List.all_eq_true, decide_eq_true_eq] at h
  obtain ⟨⟨⟨h1, h2⟩, h3⟩, h4⟩ := h
  refine ⟨?_, ?_, ?_, h4⟩
  · intro k hk
    have := h1 k hk
    split at this
    · cases this
    · rename_i s hs; exact ⟨s, hs, readsB_sound this⟩
  · intro k hk
    have := h2 k hk
    split at this
    · cases this
    · rename_i s hs
      split at this
      · cases this
      · rename_i p hp; exact ⟨s, hs, p, hp, by simpa using this⟩
  · intro k hk s hs
    have := h3 k hk
    rw [hs] at this
    simp only at this
    split at this
    · cases this
    · rename_i p hp; exact ⟨p, hp, by simpa using this⟩

/-- `Fit` for well-formed texts, computed, to the given depth. -/
def fitB (F : Type) [PyExt F] (rb : Cls → Str → Option QN → Str → Bool) : Nat → Xml → Cls → QN → Bool
  | 0, _, _, _ => false
  | n + 1, e, c, T =>
    ((typeAttrs 8 T).all fun a => (unsupportedAttrs c).any (sameStr a.name) ||
      ([] :: [XNs.kml, .gx, .atom, .xal, .xs].map uri).all fun p => match e.get (p ++ a.name) with
        | none => true
        | some s => s.isEmpty || rb c a.name a.type s) &&
    (!decide (c = .Coordinates) || match e.text with
      | none => true
      | some s => match (tuplesOf (latlons s) : Option (List (Pt F))) with
        | none => false
        | some l => l.all fun p => decide (p.length = 2 ∨ p.length = 3)) &&
    (!decide (c = .Schema) || match e.get (s% "id") with
      | none => false
      | some s => !s.isEmpty) &&
    (!decide (c = .Track) || rowsFitB F e) &&
    e.kids.all fun k => (partsOf 8 T).all fun p => p.elems.all fun x => !sameStr k.tag (tagOf x.1) ||
      hasQN (unsupported c) x.1 || hasQN (rowNames c) x.1 || match x.2 with
        | none => true
        | some t => match classFor x.1 with
          | some d => fitB F rb n k d t
          | none => match trimmed k.text with
            | none => true
            | some s => rb c x.1.name (some t) s

theorem fitB_rule {R : TextRule} {rb : Cls → Str → Option QN → Str → Bool}
    (hrb : ∀ {c n t s}, rb c n t s = true → R c n t s) {n : Nat} :
    ∀ {e : Xml} {c : Cls} {T : QN}, fitB F rb n e c T = true → Fit F R e c T := by
  induction n with
  | zero => intro e c T h; cases h
  | succ n ih =>
    intro e c T h
    simp only [fitB, Bool.and_eq_true, Bool.or_eq_true, Bool.not_eq_true', decide_eq_false_iff_not] at h
    obtain ⟨⟨⟨⟨h1, h2⟩, h3⟩, h4⟩, h5⟩ := h
    rw [fit_iff]
    refine ⟨?_, ?_, ?_, ?_, ?_⟩
    · intro a ha hu p hp s hs hne
      have := List.all_eq_true.mp h1 a ha
      rw [Bool.or_eq_true] at this
      rcases this with h | h
      · exact absurd (mem_unlist h) hu
      · have hpm : p ∈ [] :: [XNs.kml, .gx, .atom, .xal, .xs].map uri := by
          rcases hp with rfl | ⟨x, rfl⟩
          · simp
          · cases x <;> simp
        have := List.all_eq_true.mp h p hpm
        rw [hs] at this
        simp only [Bool.or_eq_true, List.isEmpty_iff] at this
        exact hrb (this.resolve_left hne)
    · intro hc s hs
      have := h2.resolve_left (fun h => h hc)
      rw [hs] at this
      simp only at this
      split at this
      · cases this
      · rename_i l hl; exact ⟨l, hl, by simpa using this⟩
    · intro hc
      have := h3.resolve_left (fun h => h hc)
      split at this
      · cases this
      · rename_i s hs; exact ⟨s, hs, by simpa using this⟩
    · intro hc
      exact rowsFitB_sound (h4.resolve_left (fun h => h hc))
    · intro k hk q t hkq ⟨p, hp, hx⟩ hu hr
      rw [fitKids_map] at hk
      obtain ⟨k', hk', rfl⟩ := List.mem_map.mp hk
      have := List.all_eq_true.mp (List.all_eq_true.mp (List.all_eq_true.mp h5 k' hk') p hp) _ hx
      simp only at hkq
      simp only [sameStr_iff.mpr hkq, Bool.not_true, Bool.false_or, Bool.or_eq_true, hasQN_iff, hu, hr, false_or] at this
      simp only
      cases hcf : classFor q with
      | some d => rw [hcf] at this; exact ih this
      | none =>
        rw [hcf] at this
        intro s hs
        simp only [hs] at this
        exact hrb this

theorem fitB_sound {n : Nat} {e : Xml} {c : Cls} {T : QN} (h : fitB F (fun c n t s => readsB F (kindOf c n t) s) n e c T = true) :
    Fit F (WellFormed F) e c T := fitB_rule (fun h => readsB_sound h) h

/-- Well-formed texts are well-formed where it matters. -/
theorem fit_number {e : Xml} : ∀ {c : Cls} {T : QN}, Fit F (WellFormed F) e c T → Fit F (WellFormedNumber F) e c T := by
  have hR : ∀ c n t s, WellFormed F c n t s → WellFormedNumber F c n t s := by
    intro c n t s h
    simp only [WellFormedNumber]
    split
    · exact h
    · exact h
    · exact fun _ => h
  induction e using Xml.ind with
  | h tag as tx ks ih =>
    intro c T hf
    rw [fit_iff] at hf ⊢
    refine ⟨fun a ha hu p hp s hs hne => hR _ _ _ _ (hf.attributes a ha hu p hp s hs hne), hf.coords, hf.schema, hf.rows, ?_⟩
    intro k hk q t hkq hd hu hr
    rw [fitKids_map] at hk
    obtain ⟨k', hk', rfl⟩ := List.mem_map.mp hk
    have := hf.children (k', fun c T => Fit F (WellFormed F) k' c T)
      (by rw [fitKids_map]; exact List.mem_map.mpr ⟨k', hk', rfl⟩) q t hkq hd hu hr
    simp only at this ⊢
    cases hcf : classFor q with
    | some d => rw [hcf] at this; exact ih k' hk' this
    | none => rw [hcf] at this; exact fun s hs => hR _ _ _ _ (this s hs)

example : Valid textOk (.q .kml (s% "KmlType")) richDoc := validB_sound textOkB_sound (n := 10) (by decide +kernel)

example : Fit Fix (WellFormedNumber Fix) richDoc .KML (.q .kml (s% "KmlType")) :=
  fit_number (fitB_sound (n := 10) (by decide +kernel))

/-- A document with a schema, a level of detail and a track. -/
def acceptDoc : Xml := kNode (s% "kml") [] [kNode (s% "Document") [] [
  kNode (s% "Schema") [(s% "id", s% "s"), (s% "name", s% "S")] [
    .mk (kmlNs ++ s% "SimpleField") [(s% "type", s% "int"), (s% "name", s% "f")] none []],
  kNode (s% "Placemark") [] [
    kNode (s% "Region") [] [kNode (s% "Lod") [] [kLeaf (s% "minLodPixels") (s% "128")]],
    .mk (gxNs ++ s% "Track") [] none [
      kLeaf (s% "when") (s% "2020-01-02"), kLeaf (s% "when") (s% "2020-01-03"),
      .leaf (gxNs ++ s% "coord") (s% "1 2"), .leaf (gxNs ++ s% "coord") (s% "3 4 5"),
      .leaf (gxNs ++ s% "angles") (s% "6 7 8")]]]]

example : Valid textOk (.q .kml (s% "KmlType")) acceptDoc := validB_sound textOkB_sound (n := 10) (by decide +kernel)

example : Fit Fix (WellFormedNumber Fix) acceptDoc .KML (.q .kml (s% "KmlType")) :=
  fit_number (fitB_sound (n := 10) (by decide +kernel))

/-! ## Valid documents that are rejected -/

/-- A schema without an id. -/
def schemaDoc : Xml := kNode (s% "kml") [] [kNode (s% "Document") [] [kNode (s% "Schema") [(s% "name", s% "S")] []]]

/-- The schema of KML lets a `Schema` have no id, strict reading stops with `SchemaError`. -/
theorem C63_schema_rejected : Valid textOk (.q .kml (s% "KmlType")) schemaDoc ∧
    errOf (parseRoot (F := Fix) none none true schemaDoc) = some .schemaError :=
  ⟨validB_sound textOkB_sound (n := 10) (by decide +kernel), by decide +kernel⟩

/-- A track with one position and two times. -/
def unpairedDoc : Xml := kNode (s% "kml") [] [kNode (s% "Placemark") [] [.mk (gxNs ++ s% "Track") [] none [
  kLeaf (s% "when") (s% "2020-01-02"), kLeaf (s% "when") (s% "2020-01-03"),
  .leaf (gxNs ++ s% "coord") (s% "1 2")]]]

/-- The schema does not pair the times of a track with its positions: with more times than
positions strict reading stops with an error that is not one of the library's own. -/
theorem C63_track_rejected : Valid textOk (.q .kml (s% "KmlType")) unpairedDoc ∧
    errOf (parseRoot (F := Fix) none none true unpairedDoc) = some .typeError :=
  ⟨validB_sound textOkB_sound (n := 10) (by decide +kernel), by decide +kernel⟩

/-- A region whose level of detail is not a whole number of pixels. -/
def fractionDoc : Xml := kNode (s% "kml") [] [kNode (s% "Placemark") [] [kNode (s% "Region") [] [
  kNode (s% "Lod") [] [kLeaf (s% "minLodPixels") (s% "128.5")]]]]

/-- The schema lets the pixels of a `Lod` be a fraction, strict reading stops. -/
theorem C63_lod_rejected : Valid textOk (.q .kml (s% "KmlType")) fractionDoc ∧
    errOf (parseRoot (F := Fix) none none true fractionDoc) = some .parseError :=
  ⟨validB_sound textOkB_sound (n := 10) (by decide +kernel), by decide +kernel⟩

/-- A schema with a field whose type is none of those fastkml knows. -/
def fieldDoc : Xml := kNode (s% "kml") [] [kNode (s% "Document") [] [
  kNode (s% "Schema") [(s% "id", s% "s")] [
    .mk (kmlNs ++ s% "SimpleField") [(s% "type", s% "xsd:int"), (s% "name", s% "f")] none []]]]

/-- The schema lets the type of a field be any text, strict reading stops. -/
theorem C63_field_rejected : Valid textOk (.q .kml (s% "KmlType")) fieldDoc ∧
    errOf (parseRoot (F := Fix) none none true fieldDoc) = some .parseError :=
  ⟨validB_sound textOkB_sound (n := 10) (by decide +kernel), by decide +kernel⟩

/-- A feature with a link whose length is a text. -/
def lengthDoc : Xml := kNode (s% "kml") [] [kNode (s% "Placemark") [] [
  .mk (uri .atom ++ s% "link") [(s% "href", s% "a"), (s% "length", s% "1kB")] none []]]

/-- The schema lets the length of an `atom:link` be any text; reading stops, in lenient
mode too, with an error that is not one of the library's own. -/
theorem C63_length_rejected : Valid textOk (.q .kml (s% "KmlType")) lengthDoc ∧
    ∀ strict, errOf (parseRoot (F := Fix) none none strict lengthDoc) = some .valueError :=
  ⟨validB_sound textOkB_sound (n := 10) (by decide +kernel), by decide +kernel⟩

end Verif
