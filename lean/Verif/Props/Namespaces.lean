import Verif.Spec.Namespaces
import Verif.Lemmas.Ns
import Verif.Lemmas.Inside
import Verif.Props.Cycle

/-!
# C40, C41: namespaces
-/

set_option linter.unusedSectionVars false
set_option linter.unusedSimpArgs false

namespace Verif

open Spec

variable {F : Type} [PyExt F]

theorem standard_eq (p : Str) : dget p defaultNameSpaces = standard p := by
  simp only [defaultNameSpaces, dget, standard, eq_comm]

theorem mergeNs_overrides {nss : NsMap} (hn : (nss.map Prod.fst).Nodup) : Overrides nss (mergeNs nss) := by
  intro p
  rw [mergeNs, dget_dupdate p _ _ hn, standard_eq]

theorem home_eq (c : Cls) : (fastkml.info c).nsid = home c := by
  have : ∀ c ∈ Cls.all, (fastkml.info c).nsid = home c := by decide +kernel
  exact this c (Cls.mem_all c)

/-- **C40.** A new object has the standard mapping with the user's entries taking
precedence; its namespace is the given one, even if empty, or the one that its class
has in that mapping. -/
theorem C40_object (c : Cls) (ns : Option Str) (nss : NsMap) (kw : List (Str × Val Cls F)) (v : Val Cls F)
    (hn : (nss.map Prod.fst).Nodup) (h : init fastkml c ns nss kw = .ok v) :
    ∃ n m as, v = .obj c n m as ∧ Overrides nss m ∧
      n = ownNs c ns nss := by
  obtain ⟨as, rfl⟩ := construct_shape h
  refine ⟨_, _, as, rfl, mergeNs_overrides hn, ?_⟩
  cases ns with
  | some n => rfl
  | none => simp only [Option.getD_none, nsGet, home_eq, mergeNs_overrides hn (home c), ownNs]

/-- A mapping of the user with another namespace for `gx` and a new prefix. -/
def userNss : NsMap := [(s% "gx", s% "{g}"), (s% "x", s% "{y}")]

example : (userNss.map Prod.fst).Nodup ∧
    (match init (F := Fix) fastkml .Track none userNss [] with
      | .ok (.obj _ n m _) => decide (n = (s% "{g}") ∧ dget (s% "x") m = some (s% "{y}") ∧
          dget (s% "kml") m = some (s% "{http://www.opengis.net/kml/2.2}"))
      | _ => false) = true ∧
    (match init (F := Fix) fastkml .Folder (some []) userNss [] with
      | .ok (.obj _ n _ _) => decide (n = [])
      | _ => false) = true := by decide +kernel

/-- **C40.** Every object of a document that is read has the document's mapping, and its
namespace is that of an element of the document with its name; the outermost object has
the namespace that was asked for. -/
theorem C40_read (strict : Bool) (c : Cls) (ns : Option Str) (nss : NsMap) (e : Xml) (v : Val Cls F)
    (hn : (nss.map Prod.fst).Nodup) (h : fromElement fastkml strict c ns nss e = .ok v) :
    (∃ as, v = .obj c (ownNs c ns nss)
      (mergeNs nss) as) ∧
    ∀ c' n' m' as', Inside (.obj c' n' m' as') v → Overrides nss m' ∧
      (.obj c' n' m' as' = v ∨ ∃ d, Sub e d ∧ d.tag = n' ++ (fastkml.info c').tag ∧
        ∃ p, n' = ((dget p nss).or (standard p)).getD []) := by
  have hns : ns.getD (nsGet (mergeNs nss) (fastkml.info c).nsid) =
      ownNs c ns nss := by
    cases ns with
    | some n => rfl
    | none => simp only [Option.getD_none, nsGet, home_eq, mergeNs_overrides hn (home c), ownNs]
  have hshape : ∀ (e : Xml) (c : Cls) (ns : Str) (nss : NsMap) (v : Val Cls F), parse fastkml strict e c ns nss = .ok v →
      ∃ as, v = .obj c ns (mergeNs nss) as := by
    intro e c ns nss v h
    obtain ⟨t, a, x, ks⟩ := e
    rw [parse_eq] at h
    simp only [parseStep] at h
    split at h
    · cases h
    · obtain ⟨as, rfl⟩ := construct_shape h
      exact ⟨as, by rw [mergeNs_idem]⟩
  simp only [fromElement] at h
  rw [hns] at h
  obtain ⟨as, hv⟩ := hshape _ _ _ _ _ h
  rw [mergeNs_idem] at hv
  refine ⟨⟨as, hv⟩, ?_⟩
  intro c' n' m' as' hi
  rcases parse_inside e h hi with heq | ⟨k, hk, d, hd, htag, ⟨c0, it, _, _, _, id, _, hid⟩, hp⟩
  · refine ⟨?_, Or.inl heq⟩
    rw [hv] at heq
    cases heq
    exact mergeNs_overrides hn
  · obtain ⟨as2, h2⟩ := hshape _ _ _ _ _ hp
    rw [mergeNs_idem, mergeNs_idem] at h2
    cases h2
    refine ⟨mergeNs_overrides hn, Or.inr ⟨d, ?_, htag, id, ?_⟩⟩
    · exact .kid hk hd
    · rw [hid, mergeNs_idem, nsGet, mergeNs_overrides hn id]

/-- A document whose tracks are in another namespace than its features. -/
def mixedXml : Xml := .mk (s% "{k}Folder") [] none [.mk (s% "{k}Placemark") [] none [
  .mk (s% "{g}Track") [] none [.leaf (s% "{k}when") (s% "2020"), .leaf (s% "{g}coord") (s% "1 2")]]]

example : (((s% "kml", s% "{k}") :: userNss).map Prod.fst).Nodup ∧
    (match fromElement (F := Fix) fastkml true .Folder none ((s% "kml", s% "{k}") :: userNss) mixedXml with
      | .ok (.obj _ n _ as) => decide (n = (s% "{k}")) && (match Spec.attr (s% "features") as with
          | .list [.obj .Placemark n _ as] => decide (n = (s% "{k}")) && (match Spec.attr (s% "kml_geometry") as with
            | .obj .Track n _ _ => decide (n = (s% "{g}"))
            | _ => false)
          | _ => false)
      | _ => false) = true := by decide +kernel

theorem endsWith_iff (p s : Str) : endsWith p s = true ↔ ∃ m, s = m ++ p := by
  rw [endsWith, List.isPrefixOf_iff_prefix]
  constructor
  · rintro ⟨t, ht⟩
    exact ⟨t.reverse, by rw [← List.reverse_reverse s, ← ht]; simp⟩
  · rintro ⟨m, rfl⟩
    exact ⟨m.reverse, by simp⟩

theorem detectNs_root (ns : Option Str) (root : Xml) : RootNs ns root.tag (detectNs ns root) := by
  cases ns with
  | some n => exact Or.inl rfl
  | none =>
    refine Or.inr ?_
    simp only [detectNs]
    by_cases h : endsWith (s% "kml") root.tag = true
    · rw [if_pos h]
      obtain ⟨m, hm⟩ := (endsWith_iff _ _).mp h
      exact Or.inl ⟨trivial, by rw [hm]; simp⟩
    · rw [if_neg h]
      refine Or.inr ⟨trivial, fun m hm => h ((endsWith_iff _ _).mpr ⟨m, hm⟩), rfl⟩

/-- **C41.** The namespace of the document is unambiguous. -/
theorem C41_unique (ns : Option Str) (tag n n' : Str) (h : RootNs ns tag n) (h' : RootNs ns tag n') : n = n' := by
  rcases h with rfl | ⟨h0, h⟩ | ⟨h0, h, rfl⟩ <;> rcases h' with h' | ⟨h1, h'⟩ | ⟨h1, h', rfl⟩
  all_goals first
    | (cases h'; rfl)
    | (rw [h0] at h'; cases h'; done)
    | (cases h1; done)
    | (cases h'; done)
    | (rw [h] at h'; exact List.append_cancel_right h')
    | exact absurd h' (h _)
    | exact absurd h (h' _)
    | rfl

theorem parseNss_nodup (n : Str) {nss : NsMap} (h : (nss.map Prod.fst).Nodup) : ((parseNss n nss).map Prod.fst).Nodup := by
  simp only [parseNss]
  split
  · exact dset_nodup h
  · exact h

theorem parseNss_get (n p : Str) (nss : NsMap) :
    dget p (parseNss n nss) = if p = (s% "kml") ∧ n ≠ [] then some n else dget p nss := by
  simp only [parseNss]
  by_cases hn : n = []
  · simp [hn]
  · simp only [hn, ne_eq, not_false_eq_true, if_true, and_true, dget_dset]
    by_cases hp : p = (s% "kml")
    · subst hp; simp
    · simp [hp, Ne.symm hp]

/-- **C41.** The `KML` object that `KML.parse` makes has the namespace of the document:
the given one; or what precedes `kml` in the tag of the root; or none.  Its mapping, and
that of all objects in it, sends `kml` to that namespace unless it is empty, and is
otherwise the standard one with the user's entries taking precedence; every object
inside comes from an element below the root, in the namespace of some prefix. -/
theorem C41_namespace (ns : Option Str) (nss : Option NsMap) (strict : Bool) (root : Xml) (v : Val Cls F)
    (hn : ((nss.getD []).map Prod.fst).Nodup) (h : parseRoot ns nss strict root = .ok v) :
    ∃ n m as, v = .obj .KML n m as ∧ RootNs ns root.tag n ∧
      (∀ p, dget p m = if p = (s% "kml") ∧ n ≠ [] then some n else (dget p (nss.getD [])).or (standard p)) ∧
      ∀ c' n' m' as', Inside (.obj c' n' m' as') v → (∀ p, dget p m' = dget p m) ∧
        (.obj c' n' m' as' = v ∨ ∃ d, Sub root d ∧ d.tag = n' ++ (fastkml.info c').tag ∧ ∃ p, n' = (dget p m).getD []) := by
  have hn' := parseNss_nodup (detectNs ns root) hn
  have h' : fromElement fastkml strict .KML (some (detectNs ns root)) (parseNss (detectNs ns root) (nss.getD [])) root =
      .ok v := h
  obtain ⟨⟨as, hv⟩, hall⟩ := C40_read strict .KML _ _ root v hn' h'
  have hm : ∀ p, dget p (mergeNs (parseNss (detectNs ns root) (nss.getD []))) =
      if p = (s% "kml") ∧ detectNs ns root ≠ [] then some (detectNs ns root) else (dget p (nss.getD [])).or (standard p) := by
    intro p
    rw [mergeNs_overrides hn' p, parseNss_get]
    split <;> simp
  refine ⟨_, _, as, hv, detectNs_root ns root, hm, ?_⟩
  intro c' n' m' as' hi
  obtain ⟨h1, h2⟩ := hall c' n' m' as' hi
  refine ⟨fun p => by rw [h1 p, mergeNs_overrides hn' p], ?_⟩
  rcases h2 with h2 | ⟨d, h2, h3, p, h4⟩
  · exact Or.inl h2
  · exact Or.inr ⟨d, h2, h3, p, by rw [h4, mergeNs_overrides hn' p]⟩

/-- **C41**, disagreement: `KML.parse` changes the dictionary that it is given, unless
it is empty or the document has no namespace; the entry for `kml` is set to the
namespace of the document. -/
theorem C41_mutation (W : Etree) (fs : FS) (p : Str × Str) (ns : Option Str) (d : NsMap) (strict : Bool)
    (va : Option Bool) (root : Xml) (hl : loadRoot W fs p strict va = .ok root) :
    ∃ n d', RootNs ns root.tag n ∧ (kmlParse (F := F) W fs p ns (some d) strict va).2 = some d' ∧
      ∀ q, dget q d' = if q = (s% "kml") ∧ n ≠ [] ∧ d ≠ [] then some n else dget q d := by
  refine ⟨detectNs ns root, if d = [] then [] else parseNss (detectNs ns root) d, detectNs_root ns root, ?_, ?_⟩
  · simp only [kmlParse, hl, callerNss]
    split <;> rfl
  · intro q
    by_cases hd : d = []
    · simp [hd]
    · simp only [hd, if_false, parseNss_get, ne_eq, not_false_eq_true, and_true]

/-- **C41.** Nothing else changes it. -/
theorem C41_unchanged (W : Etree) (fs : FS) (p : Str × Str) (ns : Option Str) (nss : Option NsMap) (strict : Bool)
    (va : Option Bool) (h : nss = none ∨ nss = some [] ∨ (∃ x, loadRoot W fs p strict va = .error x)) :
    (kmlParse (F := F) W fs p ns nss strict va).2 = nss := by
  simp only [kmlParse]
  split
  · rfl
  · rename_i root hl
    rcases h with rfl | rfl | ⟨x, hx⟩
    · rfl
    · rfl
    · rw [hx] at hl; cases hl

/-- An XML library for the examples, which reads this document from any file. -/
def toyEtree (root : Xml) (valid : Bool) : Etree where
  recovering _ := .ok root
  plain _ := .ok root
  pretty _ e := .ok e.render
  tostring e := .ok e.render
  fromstring _ := .ok root
  schema _ := .schema ⟨fun _ => valid, fun _ => []⟩

/-- Older documents. -/
def oldXml : Xml := .mk (s% "{http://earth.google.com/kml/2.1}kml") [] none [
  .mk (s% "{http://earth.google.com/kml/2.1}Folder") [] none [.leaf (s% "{http://earth.google.com/kml/2.1}name") (s% "n")]]

/-- A file system with one file. -/
def oneFile : FS := fun p => if p = (s% "d", s% "f.kml") then some (.plain []) else none

example : (userNss.map Prod.fst).Nodup ∧
    (match kmlParse (F := Fix) (toyEtree oldXml true) oneFile (s% "d", s% "f.kml") none (some userNss) true none with
      | (.ok (.obj .KML n m as), d) => decide (n = (s% "{http://earth.google.com/kml/2.1}") ∧
          dget (s% "kml") m = some n ∧ d = some (userNss ++ [(s% "kml", n)])) && (match Spec.attr (s% "features") as with
            | .list [.obj .Folder n' _ as] => n' = n ∧ Spec.attr (s% "name") as = .str (s% "n")
            | _ => false)
      | _ => false) = true := by decide +kernel

end Verif
