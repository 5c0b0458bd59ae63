import Verif.Lemmas.Verbosity

/-!
# C68: what the verbosity levels have to do with each other

C03 and C04 say what each level writes for each attribute and what is read from it.
Here are the relations between the documents of the three levels.
-/

set_option linter.unusedSectionVars false
set_option linter.unusedSimpArgs false

namespace Verif

open Spec

variable {F : Type} [PyExt F] [LawfulExt F]

/-! ## Each level has all of the level below -/

/-- **C68.** All objects can be written at all levels, at all precisions; the terse
document is the normal one, and the normal one is the verbose one, with some XML attributes, some
texts and some elements with a text and nothing else left out.  In particular, all
features, geometries and styles are in all documents, in the same order, and what is in the
terse document has the same text in the others. -/
theorem C68_nested {c : Cls} {ns : Str} {nss : NsMap} {attrs : List (Str × Val Cls F)}
    (ht : typed fastkml dim23 (.obj c ns nss attrs) = true) (p : Option Nat) :
    ∃ et en ev, ser fastkml ⟨p, .terse⟩ (.obj c ns nss attrs) = .ok et ∧
      ser fastkml ⟨p, .normal⟩ (.obj c ns nss attrs) = .ok en ∧
      ser fastkml ⟨p, .verbose⟩ (.obj c ns nss attrs) = .ok ev ∧ Within et en ∧ Within en ev := by
  obtain ⟨et, h1⟩ := C54_succeeds ht ⟨p, .terse⟩
  obtain ⟨en, h2⟩ := C54_succeeds ht ⟨p, .normal⟩
  obtain ⟨ev, h3⟩ := C54_succeeds ht ⟨p, .verbose⟩
  exact ⟨et, en, ev, h1, h2, h3, within_ser less_terse dim23 p _ ht h1 h2, within_ser less_verbose dim23 p _ ht h2 h3⟩

mutual
/-- The number of elements of a document. -/
def elements : Xml → Nat
  | .mk _ _ _ ks => elementsList ks + 1
termination_by structural e => e
/-- The same for several. -/
def elementsList : List Xml → Nat
  | [] => 0
  | k :: ks => elements k + elementsList ks
termination_by structural l => l
end

/-- The levels differ on the sample: 27, 29 and 39 elements. -/
example : typed fastkml dim23 sampleDoc = true ∧
    [Verbosity.terse, .normal, .verbose].map (fun vb => (ser fastkml ⟨none, vb⟩ sampleDoc).toOption.map elements) =
      [some 27, some 29, some 39] := ⟨by decide +kernel, by decide +kernel⟩

/-! ## From one level to another -/

section
variable [LiteralExt F]

/-- The defaults of text attributes are trimmed and not empty. -/
theorem dflt_trimmed (c : Cls) {it : Item Cls} (hit : it ∈ fastkml.itemsOf c) (s : Str) (h : it.dflt = .str s) :
    strip s = s ∧ s ≠ [] := by
  have : ∀ c ∈ Cls.all, ∀ it ∈ fastkml.itemsOf c, (match it.dflt with
      | .str s => decide (strip s = s ∧ s ≠ [])
      | _ => true) = true := by decide +kernel
  have := this c (Cls.mem_all c) it hit
  rw [h] at this
  exact of_decide_eq_true this

/-- **C68.** A canonical object that was written verbosely and read has all defaults
set, but written tersely (with any precision) it is the same document as the
original written tersely. -/
theorem C68_terse_of_verbose {c : Cls} {ns : Str} {nss : NsMap} {attrs : List (Str × Val Cls F)}
    (ht : typed fastkml dim23 (.obj c ns nss attrs) = true) {M : NsMap} (hM : NsOk M)
    (hr : Everywhere (Readable fastkml ⟨none, .verbose⟩ (mergeNs M)) (.obj c ns nss attrs))
    (hc : AllCanonical fastkml (mergeNs M) (.obj c ns nss attrs)) (strict : Bool) :
    ∃ (e : Xml) (w : Val Cls F), ser fastkml ⟨none, .verbose⟩ (.obj c ns nss attrs) = .ok e ∧
      fromElement fastkml strict c (some ns) M e = .ok w ∧
      ∀ p, ser fastkml ⟨p, .terse⟩ w = ser fastkml ⟨p, .terse⟩ (.obj c ns nss attrs) := by
  obtain ⟨e, h1, h2⟩ := C04_read ht hM hr hc strict
  refine ⟨e, _, h1, h2, ?_⟩
  intro p
  have ho := objOk_everywhere fastkml_readOk _ ht hc ⟨_, _, _, _, rfl⟩
  refine ser_mapScalars (D := fun _ => True) fastkml_readOk fastkml_writeOk ?_ _ ht
    (fun c' ns' nss' as' hin => ⟨steady_fill ho hc c' ns' nss' as' hin, trivial⟩)
  intro c' _ it hit hs w hk
  have hd := ((fastkml_writeOk c').item it hit).dflt
  refine ⟨kind_fill hd hs hk, ?_⟩
  by_cases hw : w = .none
  · subst hw
    have hf : fillDefault it (.none : Val Cls F) = reread it.get false it.dflt.val := by simp [fillDefault, isNone]
    rw [hf]
    simp only [shown, eq_default hd hs (dflt_trimmed c' hit), if_true]
    split <;> rfl
  · rw [fillDefault_some hw]

/-- **C68.** If a canonical object that was written tersely and read has no empty
objects in it, then written again, tersely or normally, it is the same document. -/
theorem C68_terse_again {c : Cls} {ns : Str} {nss : NsMap} {attrs : List (Str × Val Cls F)}
    (ht : typed fastkml dim23 (.obj c ns nss attrs) = true) {M : NsMap} (hM : NsOk M)
    (hr : Everywhere (Readable fastkml ⟨none, .terse⟩ (mergeNs M)) (.obj c ns nss attrs))
    (hc : AllCanonical fastkml (mergeNs M) (.obj c ns nss attrs)) (strict : Bool) :
    ∃ (e : Xml) (w : Val Cls F), ser fastkml ⟨none, .terse⟩ (.obj c ns nss attrs) = .ok e ∧
      fromElement fastkml strict c (some ns) M e = .ok w ∧
      (Everywhere (fun _ _ _ as => NoEmptyChild fastkml as) w →
        ∀ p, ser fastkml ⟨p, .terse⟩ w = ser fastkml ⟨p, .terse⟩ (.obj c ns nss attrs) ∧
          ser fastkml ⟨p, .normal⟩ w = ser fastkml ⟨p, .terse⟩ (.obj c ns nss attrs)) := by
  obtain ⟨e, h1, h2⟩ := C03_read ht hM hr hc strict
  refine ⟨e, _, h1, h2, ?_⟩
  intro hne p
  have ho := objOk_everywhere fastkml_readOk _ ht hc ⟨_, _, _, _, rfl⟩
  have hst := steady_map ho hc hne
  constructor
  · refine ser_mapScalars (D := fun _ => True) fastkml_readOk fastkml_writeOk ?_ _ ht
      (fun c' ns' nss' as' hin => ⟨hst c' ns' nss' as' hin, trivial⟩)
    intro c' _ it hit hs w hk
    refine ⟨kind_drop hs hk, ?_⟩
    unfold dropDefault shown
    by_cases h : scalarEq w it.dflt.val = true
    · simp only [h, if_true]; split <;> rfl
    · simp [h]
  · refine ser_mapScalars (D := fun _ => True) fastkml_readOk fastkml_writeOk ?_ _ ht
      (fun c' ns' nss' as' hin => ⟨hst c' ns' nss' as' hin, trivial⟩)
    intro c' _ it hit hs w hk
    exact ⟨kind_drop hs hk, rfl⟩

/-- **C68.** A canonical object without `NetworkLinkControl` that was written verbosely
and read is written as the same document, verbosely or normally. -/
theorem C68_verbose_again {c : Cls} {ns : Str} {nss : NsMap} {attrs : List (Str × Val Cls F)}
    (ht : typed fastkml dim23 (.obj c ns nss attrs) = true) {M : NsMap} (hM : NsOk M)
    (hr : Everywhere (Readable fastkml ⟨none, .verbose⟩ (mergeNs M)) (.obj c ns nss attrs))
    (hc : AllCanonical fastkml (mergeNs M) (.obj c ns nss attrs))
    (hn : Everywhere (fun c _ _ _ => c ≠ .NetworkLinkControl) (.obj c ns nss attrs)) (strict : Bool) :
    ∃ (e : Xml) (w : Val Cls F), ser fastkml ⟨none, .verbose⟩ (.obj c ns nss attrs) = .ok e ∧
      fromElement fastkml strict c (some ns) M e = .ok w ∧
      ∀ p, ser fastkml ⟨p, .verbose⟩ w = ser fastkml ⟨p, .verbose⟩ (.obj c ns nss attrs) ∧
        ser fastkml ⟨p, .normal⟩ w = ser fastkml ⟨p, .verbose⟩ (.obj c ns nss attrs) := by
  obtain ⟨e, h1, h2⟩ := C04_read ht hM hr hc strict
  refine ⟨e, _, h1, h2, ?_⟩
  intro p
  have ho := objOk_everywhere fastkml_readOk _ ht hc ⟨_, _, _, _, rfl⟩
  have hst := steady_fill ho hc
  have hdflt : ∀ c', c' ≠ Cls.NetworkLinkControl → ∀ it ∈ fastkml.itemsOf c', 
      reread it.get false (it.dflt.val : Val Cls F) = it.dflt.val := by
    have : ∀ c ∈ Cls.all, c ≠ Cls.NetworkLinkControl → ∀ it ∈ fastkml.itemsOf c, (match it.dflt with
        | .int _ => decide (it.get ≠ .subFloat ∧ it.get ≠ .attrFloat)
        | _ => true) = true := by decide +kernel
    intro c' hc' it hit
    have hi := this c' (Cls.mem_all c') hc' it hit
    have hs := dflt_trimmed c' hit
    cases hd : it.dflt <;> simp only [hd] at hi hs <;> simp only [Dflt.val, reread]
    · simp
    · simp [hs _ rfl]
    · rw [if_neg]
      simp only [decide_eq_true_eq] at hi
      rintro (h | h)
      · exact hi.1 h
      · exact hi.2 h
  have hshown : ∀ c', c' ≠ Cls.NetworkLinkControl → ∀ it ∈ fastkml.itemsOf c', ∀ w : Val Cls F,
      fillDefault it w = if isNone w then it.dflt.val else w := by
    intro c' hc' it hit w
    unfold fillDefault
    rw [hdflt c' hc' it hit]
  constructor
  all_goals
    refine ser_mapScalars (D := fun c => c ≠ .NetworkLinkControl) fastkml_readOk fastkml_writeOk ?_ _ ht
      (fun c' ns' nss' as' hin => ⟨hst c' ns' nss' as' hin, hn c' ns' nss' as' hin⟩)
    intro c' hc' it hit hs w hk
    refine ⟨kind_fill ((fastkml_writeOk c').item it hit).dflt hs hk, ?_⟩
    rw [hshown c' hc' it hit]
    unfold shown
    simp only
  split
  · split <;> rfl
  · rename_i h; simp [h]

end

/-! ## The sample -/

instance : LiteralExt Fix where
  dec _ _ := rfl
  int _ := rfl

theorem sampleDoc_readable (o : Opts) : Everywhere (Readable fastkml o (mergeNs [])) sampleDoc :=
  C02_readable (P := dim23)
    (everywhere_of (q := fun c _ _ attrs => objOk fastkml dim23 c attrs) (fun _ _ _ _ h => h) (by decide +kernel))
    (by decide +kernel) (by decide +kernel)
    (everywhere_of (q := fun c ns nss _ => homeB fastkml N0 c ns nss) (fun _ _ _ _ h => of_decide_eq_true h)
      (by decide +kernel))
    (everywhere_of (q := fun c _ _ attrs => completeB fastkml c attrs) (fun _ _ _ _ h => completeB_sound h)
      (by decide +kernel)) o

/-- The sample meets the hypotheses of the three theorems. -/
example : typed fastkml dim23 sampleDoc = true ∧ NsOk [] ∧ AllCanonical fastkml (mergeNs []) sampleDoc ∧
    (∀ o, Everywhere (Readable fastkml o (mergeNs [])) sampleDoc) ∧
    Everywhere (fun c _ _ _ => c ≠ .NetworkLinkControl) sampleDoc ∧
    Everywhere (fun _ _ _ as => NoEmptyChild fastkml as) (dropDefaults fastkml sampleDoc) :=
  ⟨by decide +kernel, fun p hp => absurd hp (by simp),
    everywhere_of (q := fun c _ nss attrs => canonicalB fastkml N0 c nss attrs) (fun _ _ _ _ h => canonicalB_sound h)
      (by decide +kernel),
    sampleDoc_readable,
    everywhere_of (q := fun c _ _ _ => decide (c ≠ .NetworkLinkControl)) (fun _ _ _ _ h => of_decide_eq_true h)
      (by decide +kernel),
    everywhere_of (q := fun _ _ _ attrs => noEmptyChildB fastkml attrs) (fun _ _ _ _ h => noEmptyChildB_sound h)
      (by decide +kernel)⟩

/-! ## What does not hold -/

/-- Write an object with some verbosity, read it, and give the texts of the two documents
that are written for the object and for the one that was read. -/
def twice (vb : Verbosity) (v : Val Cls Fix) : Option (Xml × Xml) :=
  match v with
  | .obj c ns nss _ => match ser fastkml ⟨none, vb⟩ v with
    | .ok e => match (fromElement fastkml true c (some ns) nss e : Except Err (Val Cls Fix)) with
      | .ok w => match ser fastkml ⟨none, vb⟩ w with
        | .ok e' => some (e, e')
        | .error _ => none
      | .error _ => none
    | .error _ => none
  | _ => none

/-- The texts of the children of an element. -/
def kidTexts : Xml → List (Str × Option Str)
  | .mk _ _ _ ks => ks.map fun k => (k.tag, k.text)

/-- **C68, excluded case.** The defaults of two attributes of `NetworkLinkControl` are
written as integers, but read as floats: the second verbose document has the texts of floats
(`0.0` and `-1.0` in Python). -/
theorem C68_network_link_control :
    (twice .verbose (newObj .NetworkLinkControl [])).map (fun p => (kidTexts p.1, kidTexts p.2)) =
    some ([(nsGet N0 (s% "kml") ++ (s% "minRefreshPeriod"), some (s% "0")), (nsGet N0 (s% "kml") ++ (s% "maxSessionLength"), some (s% "-1"))],
      [(nsGet N0 (s% "kml") ++ (s% "minRefreshPeriod"), some (PyExt.repr (PyExt.ofInt 0 : Fix))), (nsGet N0 (s% "kml") ++ (s% "maxSessionLength"), some (PyExt.repr (PyExt.ofInt (-1) : Fix)))]) := by
  decide +kernel

/-- **C68, excluded case.** A style with nothing but defaults is empty after a terse
cycle, and is not written again. -/
theorem C68_terse_shrinks :
    (twice .terse (newObj .Document [(s% "styles", .list [newObj .Style [(s% "styles", .list [
      newObj .PolyStyle [(s% "fill", .bool true)]])]])])).map (fun p => (elements p.1, elements p.2)) = some (3, 1) := by
  decide +kernel

end Verif
