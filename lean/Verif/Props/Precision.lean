import Verif.Props.Cycle
import Verif.Props.Coords
import Verif.Lemmas.Rounding
import Verif.ExactInst

/-!
# C17: what writing with a precision does to numbers
-/

set_option linter.unusedSectionVars false
set_option linter.unusedSimpArgs false

namespace Verif

open Spec

/-- The texts are the numbers of a coordinate tuple with `p` decimals (for numbers
that are finite). -/
def Spec.Components {F : Type} [ExactExt F] (p : Nat) (c : Pt F) (ws : List Str) : Prop :=
  All2 (fun f w => ExactExt.finite f = true → Approximates p (ExactExt.neg f) (ExactExt.num f) (ExactExt.den f) w) c ws

variable {F : Type} [PyExt F] [LawfulExt F] [ExactExt F] [LawfulExact F]

theorem components_fixed (p : Nat) (c : Pt F) : Components p c (c.map (fmt (some p))) := by
  unfold Components
  induction c with
  | nil => exact .nil
  | cons f c ih => exact .cons (fun hf => fixed_approximates p f hf) ih

/-- **C17.** The text of a `<coordinates>` element written with precision `p` has one
word for each tuple; the word has one number for each component, separated by
commas; the number has exactly `p` decimals and is the component up to half a unit
of the last decimal. -/
theorem C17_coordinates (p : Nat) (vb : Verbosity) {ns : Str} {nss : NsMap} {l : List (Pt F)} {e : Xml}
    (hl : l ≠ []) (hd : ∀ c ∈ l, c.length = 2 ∨ c.length = 3)
    (he : ser fastkml ⟨some p, vb⟩ (.obj .Coordinates ns nss [(s% "coords", .coords l)]) = .ok e) :
    ∃ t, e.text = some t ∧ All2 (fun c w => Components p c (splitOn ',' w)) l (splitWs t) := by
  obtain ⟨hA, h⟩ := C26_write ⟨some p, vb⟩ ns nss l
  rw [he] at h
  obtain ⟨e', h1, h2⟩ := h (by simp)
  cases h1
  rw [if_neg hl] at h2
  have hw : ∀ w ∈ l.map (fun c => join [','] (c.map (fmt (some p)))), Word w := by
    intro w hw
    obtain ⟨c, hc, rfl⟩ := List.mem_map.mp hw
    have hne : c ≠ [] := by rintro rfl; rcases hd _ hc with h | h <;> simp at h
    exact join_comma_word (by simpa using hne) (coord_plain _ c)
  refine ⟨_, h2, ?_⟩
  unfold coordsText
  rw [splitWs_join hw]
  clear hl he h2 hw h hA
  induction l with
  | nil => exact .nil
  | cons c l ih =>
    refine .cons ?_ (ih fun c hc => hd c (by simp [hc]))
    rw [splitOn_join]
    · exact components_fixed p c
    · rcases hd c (by simp) with h | h <;> (rintro h0; have := congrArg List.length h0; simp [h] at this)
    · intro s hs; exact (coord_plain _ c s hs).noComma

example : (ser fastkml ⟨some 1, .normal⟩ (.obj .Coordinates [] [] [(s% "coords",
      .coords [[(⟨some (false, 1250000)⟩ : SFix), ⟨some (true, 1)⟩], [⟨some (false, 1350000)⟩, ⟨none⟩]])])).map (·.text) =
    .ok (some (s% "1.2,-0.0 1.4,nan")) := by decide +kernel

/-- **C17.** The same for the rows of a track: there is one block of `<coord>`
elements, one for each row with a position, with one word for each component. -/
theorem C17_track {P : Pt F → Bool} (p : Nat) (vb : Verbosity) {ns : Str} {nss : NsMap}
    {attrs : List (Str × Val Cls F)} (ht : typed fastkml P (.obj .Track ns nss attrs) = true) {e : Xml}
    (he : ser fastkml ⟨some p, vb⟩ (.obj .Track ns nss attrs) = .ok e) :
    ∃ pre ks post, e.kids = pre ++ ks ++ post ∧
      All2 (fun c x => x.tag = ns ++ s% "coord" ∧ ∃ t, x.text = some t ∧ Components p c (splitWs t))
        (((rows attrs).map (·.coord)).filter fun c => !ptEmpty c) ks := by
  have hW := ser_written (fastkml_writeOk .Track) ht he
  obtain ⟨blocks, hb, hk⟩ := hW.kids
  have hit : ∃ it ∈ fastkml.itemsOf .Track, it.attr = s% "coords" ∧ it.get = .coordsList ∧ it.node = s% "coord" := by
    decide +kernel
  obtain ⟨it, hit, ha, hg, hn⟩ := hit
  obtain ⟨i1, i2, hi⟩ := List.append_of_mem hit
  rw [hi] at hb
  obtain ⟨b1, b2', rfl, h1, h2⟩ := hb.append_left
  cases h2 with
  | cons h2 h3 =>
    rename_i ks b2
    refine ⟨b1.flatten, ks, b2.flatten, by rw [hk]; simp, ?_⟩
    have hsp : (fastkml.info .Track).special = .track := by decide
    simp only [Block, hg, place, ha, value, hsp, hn] at h2
    simp only [true_and, show (s% "coords") ≠ (s% "whens") by decide, if_false, if_true, listKids] at h2
    subst h2
    clear hb hk h1 h3 hi hit
    generalize ((rows attrs).map (·.coord)).filter (fun c => !ptEmpty c) = l
    induction l with
    | nil => exact .nil
    | cons c l ih =>
      refine .cons ⟨rfl, _, rfl, ?_⟩ ih
      rw [splitWs_join]
      · exact components_fixed p c
      · intro w hw; exact (coord_plain _ c w hw).word

example : (ser fastkml ⟨some 2, .normal⟩ (.obj .Track [] [] [(s% "track_items",
      .items [⟨none, [(⟨some (false, 1255000)⟩ : SFix), ⟨some (true, 2300000)⟩], none⟩])])).map
      (fun e => e.kids.map fun k => (k.tag, k.text)) =
    .ok [(s% "when", some (s% "()")), (s% "coord", some (s% "1.26 -2.30"))] := by decide +kernel

/-- **C17.** Rounding an object again changes nothing. -/
theorem C17_idem (p : Nat) (v : Val Cls F) : roundCoords p (roundCoords p v) = roundCoords p v := by
  unfold roundCoords
  have h : ∀ f : F, roundTo (some p) (roundTo (some p) f) = roundTo (some p) f := roundTo_idem p
  exact mapCoords_idem h v

/-- **C17.** Writing an object and writing the object with its coordinates already
rounded gives the same element. -/
theorem C17_again (p : Nat) (vb : Verbosity) (v : Val Cls F) :
    ser fastkml ⟨some p, vb⟩ (roundCoords p v) = ser fastkml ⟨some p, vb⟩ v :=
  ser_mapCoords (roundTo_isNaN p) (p := some p) (fun f => fixed_roundTo p f) fastkml vb v

/-- **C17.** Reading the output for a canonical object, written with precision `p`,
gives the object with its coordinates rounded to `p` decimals and nothing else
changed; and writing that object with precision `p` gives the same element again. -/
theorem C17_read (p : Nat) {c : Cls} {ns : Str} {nss : NsMap} {attrs : List (Str × Val Cls F)}
    (ht : typed fastkml dim23 (.obj c ns nss attrs) = true) {M : NsMap} (hM : NsOk M)
    (hr : Everywhere (Readable fastkml ⟨some p, .normal⟩ (mergeNs M)) (.obj c ns nss attrs))
    (hc : AllCanonical fastkml (mergeNs M) (.obj c ns nss attrs)) (strict : Bool) :
    ∃ e, ser fastkml ⟨some p, .normal⟩ (.obj c ns nss attrs) = .ok e ∧
      fromElement fastkml strict c (some ns) M e = .ok (roundCoords p (.obj c ns nss attrs)) ∧
      ser fastkml ⟨some p, .normal⟩ (roundCoords p (.obj c ns nss attrs)) = .ok e := by
  obtain ⟨e, he, h⟩ := C02_cycle ht hM hr strict
  refine ⟨e, he, ?_, by rw [C17_again, he]⟩
  rw [h, cycle_round fastkml_readOk fastkml_writeOk fastkml_cycleOk p (roundTo_isNaN p) .normal _ _ ht ⟨_, _, _, _, rfl⟩,
    cycle_canonical fastkml_readOk (changes_normal fastkml_cycleOk _) _ ht hc ⟨_, _, _, _, rfl⟩, mapScalars_id]

/-- **C17.** For any object that can be read back: what is read after writing with a
precision is what is read after writing without, with its coordinates rounded. -/
theorem C17_cycle (p : Nat) (vb : Verbosity) {c : Cls} {ns : Str} {nss : NsMap} {attrs : List (Str × Val Cls F)}
    (ht : typed fastkml dim23 (.obj c ns nss attrs) = true) {M : NsMap} (hM : NsOk M)
    (hr : Everywhere (Readable fastkml ⟨none, vb⟩ (mergeNs M)) (.obj c ns nss attrs)) (strict : Bool) :
    ∃ (e e' : Xml) (v : Val Cls F), ser fastkml ⟨none, vb⟩ (.obj c ns nss attrs) = .ok e ∧
      ser fastkml ⟨some p, vb⟩ (.obj c ns nss attrs) = .ok e' ∧
      fromElement fastkml strict c (some ns) M e = .ok v ∧
      fromElement fastkml strict c (some ns) M e' = .ok (roundCoords p v) := by
  obtain ⟨e, he, h⟩ := C02_cycle ht hM hr strict
  have hr' : Everywhere (Readable fastkml ⟨some p, vb⟩ (mergeNs M)) (.obj c ns nss attrs) := by
    intro c ns nss attrs hin
    have K := hr c ns nss attrs hin
    exact ⟨K.attr, K.child, K.whens, K.coords, K.object, K.objects, K.times, K.rows, K.inOrder, K.untimed, K.schema, K.kml⟩
  obtain ⟨e', he', h'⟩ := C02_cycle ht hM hr' strict
  refine ⟨e, e', _, he, he', h, ?_⟩
  rw [h', cycle_round fastkml_readOk fastkml_writeOk fastkml_cycleOk p (roundTo_isNaN p) vb _ _ ht ⟨_, _, _, _, rfl⟩]


/-! ## A sample -/

/-- `cls(**kw)`. -/
def newS (c : Cls) (kw : List (Str × Val Cls SFix)) : Val Cls SFix :=
  match init fastkml c none [] kw with
  | .ok v => v
  | .error _ => .none

/-- A folder with a line; its coordinates have more than two decimals. -/
def fineFolder : Val Cls SFix := newS .Folder [(s% "features", .list [newS .Placemark [(s% "name", .str (s% "n")),
  (s% "kml_geometry", newS .LineString [(s% "kml_coordinates", newS .Coordinates [(s% "coords",
    .coords [[⟨some (false, 1234567)⟩, ⟨some (true, 1255000)⟩], [⟨some (true, 4999)⟩, ⟨some (false, 999995001)⟩]])])])]])]

/-- The sample meets the hypotheses of `C17_read`, and rounding changes it. -/
example : ∃ c ns nss attrs, fineFolder = .obj c ns nss attrs ∧ typed fastkml dim23 fineFolder = true ∧ NsOk [] ∧
    Everywhere (Readable fastkml ⟨some 2, .normal⟩ (mergeNs [])) fineFolder ∧
    AllCanonical fastkml (mergeNs []) fineFolder ∧ roundCoords 2 fineFolder ≠ fineFolder := by
  refine ⟨_, _, _, _, rfl, ?_, (fun p hp => absurd hp (by simp)), ?_, ?_, ?_⟩
  · decide +kernel
  · exact C02_readable (P := dim23)
      (everywhere_of (q := fun c _ _ attrs => objOk fastkml dim23 c attrs) (fun _ _ _ _ h => h) (by decide +kernel))
      (by decide +kernel) (by decide +kernel)
      (everywhere_of (q := fun c ns nss _ => homeB fastkml N0 c ns nss) (fun _ _ _ _ h => of_decide_eq_true h)
        (by decide +kernel))
      (everywhere_of (q := fun c _ _ attrs => completeB fastkml c attrs) (fun _ _ _ _ h => completeB_sound h)
        (by decide +kernel)) _
  · exact everywhere_of (q := fun c _ nss attrs => canonicalB fastkml N0 c nss attrs)
      (fun _ _ _ _ h => canonicalB_sound h) (by decide +kernel)
  · decide +kernel

end Verif
