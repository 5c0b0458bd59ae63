import Verif.Crash
import Verif.Lemmas.Prefix
import Verif.Props.Files
import Verif.Props.Config

/-!
# C80: Interrupted and interleaved writes
-/

set_option linter.unusedSectionVars false
set_option linter.unusedSimpArgs false

namespace Verif

open Spec

variable {F : Type} [PyExt F]

theorem effects_append (fs : FS) (xs ys : List Effect) : effects fs (xs ++ ys) = effects (effects fs xs) ys := List.foldl_append

theorem effects_cons (fs : FS) (x : Effect) (xs : List Effect) : effects fs (x :: xs) = effects (x.apply fs) xs := rfl

/-- What happens to a file depends on the effects on this file only. -/
theorem effects_path (fs : FS) (xs : List Effect) (q : Str × Str) :
    effects fs xs q = (xs.filter fun x => decide (x.path = q)).foldl Effect.file (fs q) := by
  induction xs generalizing fs with
  | nil => rfl
  | cons x xs ih =>
    rw [effects_cons, ih, List.filter_cons]
    by_cases h : x.path = q
    · subst h
      simp [Effect.apply]
    · have h' : ¬ q = x.path := fun e => h e.symm
      simp [Effect.apply, h, h']

theorem effects_other {fs : FS} {xs : List Effect} {q : Str × Str} (h : ∀ x ∈ xs, x.path ≠ q) : effects fs xs q = fs q := by
  rw [effects_path, List.filter_eq_nil_iff.mpr fun x hx => by simpa using h x hx]
  rfl

theorem writeEffects_eq (W : Etree) (io : Io) (p : Str × Str) (pp : Bool) (o : Opts) (v : Val Cls F) :
    writeEffects W io p pp o v = match toString W pp o v with
      | .error x => .error x
      | .ok t => if suffix p.2 = (s% ".kmz") then
          .ok (.truncate p :: ((io.zipping (utf8 t)).map (Effect.replace p) ++ [.archive p [(s% "doc.kml", utf8 t)]]))
        else .ok (.truncate p :: (io.split (utf8 t)).map (Effect.append p)) := by
  simp only [writeEffects, toString]
  cases ser fastkml o v <;> rfl

theorem writeEffects_path {W : Etree} {io : Io} {p : Str × Str} {pp : Bool} {o : Opts} {v : Val Cls F} {xs : List Effect}
    (h : writeEffects W io p pp o v = .ok xs) : ∀ x ∈ xs, x.path = p := by
  rw [writeEffects_eq] at h
  split at h
  · cases h
  · split at h <;> cases h <;> intro x hx
    · simp only [List.mem_cons, List.mem_append, List.mem_map, List.not_mem_nil, or_false] at hx
      rcases hx with rfl | ⟨b, _, rfl⟩ | rfl <;> rfl
    · simp only [List.mem_cons, List.mem_map] at hx
      rcases hx with rfl | ⟨b, _, rfl⟩ <;> rfl

theorem appended (p : Str × Str) (bs : List Bytes) (a : Bytes) :
    (bs.map (Effect.append p)).foldl Effect.file (some (.plain a)) = some (.plain (a ++ bs.flatten)) := by
  induction bs generalizing a with
  | nil => simp
  | cons b bs ih => simp [Effect.file, ih]

theorem replaced (p : Str × Str) (bs : List Bytes) (a : Bytes) :
    ∃ b, (bs.map (Effect.replace p)).foldl Effect.file (some (.plain a)) = some (.plain b) := by
  induction bs generalizing a with
  | nil => exact ⟨a, rfl⟩
  | cons b bs ih => exact ih b

theorem filter_own {W : Etree} {io : Io} {p : Str × Str} {pp : Bool} {o : Opts} {v : Val Cls F} {xs : List Effect}
    (h : writeEffects W io p pp o v = .ok xs) (n : Nat) : (xs.take n).filter (fun x => decide (x.path = p)) = xs.take n :=
  List.filter_eq_self.mpr fun x hx => by simpa using writeEffects_path h x (List.mem_of_mem_take hx)

/-- **C80.** All effects together are what `KML.write` does (C42). -/
theorem C80_complete (W : Etree) (io : Io) (fs : FS) (p : Str × Str) (pp : Bool) (o : Opts) (v : Val Cls F) :
    (∃ x, kmlWrite W fs p pp o v = (fs, .error x) ∧ writeEffects W io p pp o v = .error x) ∨
    ∃ xs, writeEffects W io p pp o v = .ok xs ∧ kmlWrite W fs p pp o v = (effects fs xs, .ok ()) := by
  rw [kmlWrite_eq]
  have hw := writeEffects_eq W io p pp o v
  cases ht : toString W pp o v with
  | error x =>
    rw [ht] at hw
    exact .inl ⟨x, rfl, hw⟩
  | ok t =>
    right
    rw [ht] at hw
    by_cases hk : suffix p.2 = (s% ".kmz")
    · simp only [hk, if_true] at hw
      refine ⟨_, hw, ?_⟩
      simp only [hk, if_true]
      refine Prod.ext ?_ rfl
      funext q
      show FS.put fs p _ q = effects fs _ q
      by_cases hq : q = p
      · subst hq
        have := filter_own hw (n := (Effect.truncate q :: ((io.zipping (utf8 t)).map (Effect.replace q) ++ [.archive q [(s% "doc.kml", utf8 t)]])).length)
        rw [List.take_length] at this
        rw [effects_path, this]
        simp only [List.foldl_cons, List.foldl_append, List.foldl_nil, FS.put, if_true]
        rfl
      · rw [effects_other fun x hx => by rw [writeEffects_path hw x hx]; exact fun e => hq e.symm]
        simp [FS.put, hq]
    · simp only [hk, if_false] at hw
      refine ⟨_, hw, ?_⟩
      simp only [hk, if_false]
      refine Prod.ext ?_ rfl
      funext q
      show FS.put fs p _ q = effects fs _ q
      by_cases hq : q = p
      · subst hq
        have := filter_own hw (n := (Effect.truncate q :: (io.split (utf8 t)).map (Effect.append q)).length)
        rw [List.take_length] at this
        rw [effects_path, this, List.foldl_cons]
        show _ = (_ : List Effect).foldl Effect.file (some (.plain []))
        rw [appended, List.nil_append, io.all]
        simp [FS.put]
      · rw [effects_other fun x hx => by rw [writeEffects_path hw x hx]; exact fun e => hq e.symm]
        simp [FS.put, hq]

/-- **C80.** Whenever `KML.write` is interrupted, no other file has changed, … -/
theorem C80_others (W : Etree) (io : Io) (fs : FS) (p : Str × Str) (pp : Bool) (o : Opts) (v : Val Cls F) (n : Nat) (q : Str × Str) (hq : q ≠ p) :
    interrupted W io fs p pp o v n q = fs q := by
  unfold interrupted
  cases hx : writeEffects W io p pp o v with
  | error x => rfl
  | ok xs =>
    exact effects_other fun x h => by rw [writeEffects_path hx x (List.mem_of_mem_take h)]; exact fun e => hq e.symm

/-- … and nothing has changed at all if the object cannot be written as text. -/
theorem C80_failed (W : Etree) (io : Io) (fs : FS) (p : Str × Str) (pp : Bool) (o : Opts) (v : Val Cls F) (x : FErr)
    (h : toString W pp o v = .error x) (n : Nat) : interrupted W io fs p pp o v n = fs := by
  unfold interrupted
  rw [writeEffects_eq, h]

/-- **C80.** The file itself is as before, or it contains the beginning of the text in UTF-8; after all
effects it contains the complete text. -/
theorem C80_target (W : Etree) (io : Io) (fs : FS) (p : Str × Str) (hk : ¬ KmzName p.2) (pp : Bool) (o : Opts) (v : Val Cls F) (t : Str)
    (h : toString W pp o v = .ok t) (n : Nat) :
    (n = 0 ∧ interrupted W io fs p pp o v n = fs) ∨ ∃ b, b <+: utf8 t ∧ interrupted W io fs p pp o v n p = some (.plain b) ∧
      ((io.split (utf8 t)).length < n → b = utf8 t) := by
  have hw := writeEffects_eq W io p pp o v
  rw [h] at hw
  simp only [mt (C42_suffix p.2).mp hk, if_false] at hw
  unfold interrupted
  rw [hw]
  cases n with
  | zero => exact .inl ⟨rfl, rfl⟩
  | succ n =>
    right
    refine ⟨((io.split (utf8 t)).take n).flatten, ?_, ?_, ?_⟩
    · refine ⟨((io.split (utf8 t)).drop n).flatten, ?_⟩
      rw [← List.flatten_append, List.take_append_drop, io.all]
    · have := filter_own hw (n + 1)
      simp only []
      rw [effects_path, this, List.take_succ_cons, List.foldl_cons, ← List.map_take]
      show (_ : List Effect).foldl Effect.file (some (.plain [])) = _
      rw [appended]
      rfl
    · intro hn
      rw [List.take_of_length_le (by omega), io.all]

/-- **C80, archives.** A `.kmz` is as before, or not an archive, or complete. -/
theorem C80_kmz (W : Etree) (io : Io) (fs : FS) (p : Str × Str) (hk : KmzName p.2) (pp : Bool) (o : Opts) (v : Val Cls F) (t : Str)
    (h : toString W pp o v = .ok t) (n : Nat) :
    (n = 0 ∧ interrupted W io fs p pp o v n = fs) ∨ (∃ b, interrupted W io fs p pp o v n p = some (.plain b)) ∨
      interrupted W io fs p pp o v n p = some (.zip [(s% "doc.kml", utf8 t)]) := by
  have hw := writeEffects_eq W io p pp o v
  rw [h] at hw
  simp only [(C42_suffix p.2).mpr hk, if_true] at hw
  unfold interrupted
  rw [hw]
  cases n with
  | zero => exact .inl ⟨rfl, rfl⟩
  | succ n =>
    right
    have := filter_own hw (n + 1)
    simp only []
    rw [effects_path, this, List.take_succ_cons, List.foldl_cons, List.take_append, List.foldl_append, ← List.map_take]
    show (∃ b, List.foldl Effect.file ((_ : List Effect).foldl Effect.file (some (.plain []))) _ = _) ∨
      List.foldl Effect.file ((_ : List Effect).foldl Effect.file (some (.plain []))) _ = _
    obtain ⟨b, hb⟩ := replaced p ((io.zipping (utf8 t)).take n) []
    rw [hb]
    generalize n - _ = k
    cases k with
    | zero => exact .inl ⟨b, rfl⟩
    | succ k => exact .inr (by simp [Effect.file])

/-- **C80, repeating.** Any number of interrupted attempts leave no trace once a write is complete. -/
theorem C80_retry (W : Etree) (fs : FS) (p : Str × Str) (tries : List (Io × Bool × Opts × Val Cls F × Nat)) (pp : Bool) (o : Opts)
    (v : Val Cls F) (h : (kmlWrite W fs p pp o v).2 = .ok ()) :
    kmlWrite W (tries.foldl (fun fs a => interrupted W a.1 fs p a.2.1 a.2.2.1 a.2.2.2.1 a.2.2.2.2) fs) p pp o v = kmlWrite W fs p pp o v := by
  have ho : ∀ (tries : List (Io × Bool × Opts × Val Cls F × Nat)) (fs : FS) (q : Str × Str), q ≠ p →
      tries.foldl (fun fs a => interrupted W a.1 fs p a.2.1 a.2.2.1 a.2.2.2.1 a.2.2.2.2) fs q = fs q := by
    intro tries
    induction tries with
    | nil => intro fs q _; rfl
    | cons a l ih =>
      intro fs q hq
      rw [List.foldl_cons, ih _ _ hq]
      exact C80_others W _ fs p _ _ _ _ q hq
  have key : ∀ f, FS.put (tries.foldl (fun fs a => interrupted W a.1 fs p a.2.1 a.2.2.1 a.2.2.2.1 a.2.2.2.2) fs) p f = FS.put fs p f := by
    intro f
    funext q
    by_cases hq : q = p
    · simp [FS.put, hq]
    · simp only [FS.put, hq, if_false]
      exact ho tries fs q hq
  rw [kmlWrite_eq, kmlWrite_eq] at *
  cases ht : toString W pp o v with
  | error x => rw [ht] at h; cases h
  | ok t => simp only [key]

/-- All orders in which two sequences can happen. -/
inductive Interleaved {α : Type} : List α → List α → List α → Prop where
  | nil : Interleaved [] [] []
  | left {x a b c} : Interleaved a b c → Interleaved (x :: a) b (x :: c)
  | right {x a b c} : Interleaved a b c → Interleaved a (x :: b) (x :: c)

theorem Interleaved.split {α : Type} {a b c : List α} (h : Interleaved a b c) (P : α → Bool) (ha : ∀ x ∈ a, P x = true) (hb : ∀ x ∈ b, P x = false)
    (n : Nat) : ∃ k, (c.take n).filter P = a.take k := by
  induction h generalizing n with
  | nil => exact ⟨0, by simp⟩
  | @left x a b c _ ih =>
    cases n with
    | zero => exact ⟨0, by simp⟩
    | succ n =>
      obtain ⟨k, hk⟩ := ih (fun y hy => ha y (List.mem_cons_of_mem _ hy)) hb n
      exact ⟨k + 1, by rw [List.take_succ_cons, List.filter_cons_of_pos (ha x List.mem_cons_self), hk, List.take_succ_cons]⟩
  | @right x a b c _ ih =>
    cases n with
    | zero => exact ⟨0, by simp⟩
    | succ n =>
      obtain ⟨k, hk⟩ := ih ha (fun y hy => hb y (List.mem_cons_of_mem _ hy)) n
      exact ⟨k, by rw [List.take_succ_cons, List.filter_cons_of_neg (by simp [hb x List.mem_cons_self]), hk]⟩

theorem Interleaved.swap {α : Type} {a b c : List α} (h : Interleaved a b c) : Interleaved b a c := by
  induction h with
  | nil => exact .nil
  | left _ ih => exact .right ih
  | right _ ih => exact .left ih

theorem Interleaved.only {α : Type} {a b c : List α} (h : Interleaved a b c) (P : α → Bool) (ha : ∀ x ∈ a, P x = true) (hb : ∀ x ∈ b, P x = false) :
    c.filter P = a := by
  induction h with
  | nil => rfl
  | @left x a b c _ ih =>
    rw [List.filter_cons_of_pos (ha x List.mem_cons_self), ih (fun y hy => ha y (List.mem_cons_of_mem _ hy)) hb]
  | @right x a b c _ ih =>
    rw [List.filter_cons_of_neg (by simp [hb x List.mem_cons_self]), ih ha (fun y hy => hb y (List.mem_cons_of_mem _ hy))]

/-- **C80, schedules.** Two processes that write different files do not disturb each other,
whatever the order of their effects: when both are done, both files are as if they had
been written alone; … -/
theorem C80_schedule (W : Etree) (io : Io) (fs : FS) {p q : Str × Str} (hpq : p ≠ q) {pp pp' : Bool} {o o' : Opts} {v w : Val Cls F}
    {xs ys zs : List Effect} (hx : writeEffects W io p pp o v = .ok xs) (hy : writeEffects W io q pp' o' w = .ok ys) (hz : Interleaved xs ys zs) :
    effects fs zs p = (kmlWrite W fs p pp o v).1 p ∧ effects fs zs q = (kmlWrite W fs q pp' o' w).1 q ∧
      ∀ r, r ≠ p → r ≠ q → effects fs zs r = fs r := by
  have key : ∀ {p q : Str × Str}, p ≠ q → ∀ {pp pp' : Bool} {o o' : Opts} {v w : Val Cls F} {xs ys : List Effect},
      writeEffects W io p pp o v = .ok xs → writeEffects W io q pp' o' w = .ok ys → Interleaved xs ys zs →
      effects fs zs p = (kmlWrite W fs p pp o v).1 p := by
    intro p q hpq pp pp' o o' v w xs ys hx hy hz
    rcases C80_complete W io fs p pp o v with ⟨x, _, h⟩ | ⟨xs', h, hk⟩
    · rw [hx] at h; cases h
    · rw [hx] at h; cases h
      rw [hk]
      show _ = effects fs xs p
      rw [effects_path, effects_path, hz.only (fun x => decide (x.path = p)) (fun x h => by simpa using writeEffects_path hx x h)
        (fun x h => by simpa [writeEffects_path hy x h] using fun e : q = p => hpq e.symm)]
      rw [List.filter_eq_self.mpr fun x h => by simpa using writeEffects_path hx x h]
  refine ⟨key hpq hx hy hz, key (fun e => hpq e.symm) hy hx hz.swap, ?_⟩
  intro r hp hq
  refine effects_other fun x hm => ?_
  have : x ∈ xs ∨ x ∈ ys := by
    clear hx hy key
    induction hz with
    | nil => cases hm
    | left _ ih =>
      rcases List.mem_cons.mp hm with rfl | hm
      · exact .inl List.mem_cons_self
      · exact (ih hm).imp (List.mem_cons_of_mem _) id
    | right _ ih =>
      rcases List.mem_cons.mp hm with rfl | hm
      · exact .inr List.mem_cons_self
      · exact (ih hm).imp id (List.mem_cons_of_mem _)
  rcases this with h | h
  · rw [writeEffects_path hx x h]; exact fun e => hp e.symm
  · rw [writeEffects_path hy x h]; exact fun e => hq e.symm

/-- … and at any time before, each is as if its own write had been interrupted. -/
theorem C80_schedule_crash (W : Etree) (io : Io) (fs : FS) {p q : Str × Str} (hpq : p ≠ q) {pp pp' : Bool} {o o' : Opts} {v w : Val Cls F}
    {xs ys zs : List Effect} (hx : writeEffects W io p pp o v = .ok xs) (hy : writeEffects W io q pp' o' w = .ok ys) (hz : Interleaved xs ys zs)
    (n : Nat) : ∃ k, effects fs (zs.take n) p = interrupted W io fs p pp o v k p := by
  obtain ⟨k, hk⟩ := hz.split (fun x => decide (x.path = p)) (fun x h => by simpa using writeEffects_path hx x h)
    (fun x h => by simpa [writeEffects_path hy x h] using fun e : q = p => hpq e.symm) n
  refine ⟨k, ?_⟩
  unfold interrupted
  rw [hx]
  simp only []
  rw [effects_path, effects_path, hk, filter_own hx]

/-! ## Reading what was not completely written -/

section

variable [LawfulExt F] [AsciiExt F]

/-- **C80, detected.** With `ElementTree`, a file that was not completely written is never taken for
a document: it is as before, or complete, or `KML.parse` raises an error. -/
theorem C80_detected {m : Prefixes} (hm : Usable m) (h0 : ∀ p ∈ m, p.2 ≠ []) {c : Cls} {ns : Str} {nss : NsMap} {attrs : List (Str × Val Cls F)}
    (ht : typed fastkml dim23 (.obj c ns nss attrs) = true) (hl : Everywhere (Legal fastkml) (.obj c ns nss attrs)) (io : Io) (fs : FS)
    (p : Str × Str) (hk : ¬ KmzName p.2) (pp : Bool) (o : Opts) (n : Nat) :
    (n = 0 ∧ interrupted (Std.lib m) io fs p pp o (.obj c ns nss attrs) n = fs) ∨
    interrupted (Std.lib m) io fs p pp o (.obj c ns nss attrs) n p = (kmlWrite (Std.lib m) fs p pp o (.obj c ns nss attrs)).1 p ∨
    ∀ ns' nss' strict v, (kmlParse (F := F) (Std.lib m) (interrupted (Std.lib m) io fs p pp o (.obj c ns nss attrs) n) p ns' nss' strict v).1 =
      .error (.xml 0) := by
  obtain ⟨e, t, e', -, htx, hf, -, -⟩ := C67_written (C70_faithful hm h0) ⟨_, _, _, _, rfl⟩ ht hl pp o
  rcases C80_target (Std.lib m) io fs p hk pp o _ t htx n with h | ⟨b, hb, hfile, -⟩
  · exact .inl h
  · right
    by_cases hn : b = utf8 t
    · left
      rw [hfile, hn, kmlWrite_eq, htx]
      simp [mt (C42_suffix p.2).mp hk, FS.put]
    · right
      intro ns' nss' strict v
      have hp := Std.parseFile_prefix hf hb hn
      generalize interrupted (Std.lib m) io fs p pp o (.obj c ns nss attrs) n = fs' at hfile
      have hr : loadRoot (Std.lib m) fs' p strict v = .error (.xml 0) := by
        have h1 : (Std.lib m).recovering (.plain b) = .error .typeError := rfl
        have h2 : (Std.lib m).plain (.plain b) = .error (.xml 0) := hp
        simp only [loadRoot, parseAndValidate, openFile, hfile, h1, h2]
      simp only [kmlParse, hr]

end

/-- **C80, finding.** Writing is not atomic: the document that was in the file is gone before the new
one is there. -/
theorem C80_lost (W : Etree) (io : Io) (fs : FS) (p : Str × Str) (hk : ¬ KmzName p.2) (pp : Bool) (o : Opts) (v : Val Cls F) (t : Str)
    (h : toString W pp o v = .ok t) : interrupted W io fs p pp o v 1 p = some (.plain []) := by
  have hw := writeEffects_eq W io p pp o v
  rw [h] at hw
  simp only [mt (C42_suffix p.2).mp hk, if_false] at hw
  unfold interrupted
  rw [hw]
  simp [effects, Effect.apply, Effect.path, Effect.file]

/-! ## Cases -/

/-- A buffer that is written in two parts. -/
def twoParts (k : Nat) : Io := ⟨fun b => [b.take k, b.drop k], by simp, fun _ => []⟩

/-- A document with two placemarks. -/
def twoPlaces : Val Cls Fix := newObj .KML [(s% "features", .list [newObj .Document [(s% "features", .list [
  newObj .Placemark [(s% "name", .str (s% "a"))], newObj .Placemark [(s% "name", .str (s% "b"))]])]])]

/-- The names of the placemarks of a document. -/
def placeNames : Val Cls Fix → List (Val Cls Fix)
  | v => match field (s% "features") v with
    | .list [d] => match field (s% "features") d with
      | .list l => l.map (field (s% "name"))
      | _ => []
    | _ => []

private def kmlTable : Prefixes := [(kmlUri, s% "kml")]

private def target : Str × Str := (s% "/tmp", s% "a.kml")

private def cutText : Str := s% "<kml:kml xmlns:kml=\"http://www.opengis.net/kml/2.2\"><kml:Document><kml:Placemark><kml:name>a</kml:name></kml:Placemark><kml:Placema"

private def endText : Str := s% "rk><kml:name>b</kml:name></kml:Placemark></kml:Document></kml:kml>"

private theorem twoPlaces_text : toString (recoverer kmlTable) true ⟨none, .normal⟩ twoPlaces = .ok (cutText ++ endText) := by decide +kernel

private theorem twoPlaces_text_std : toString (Std.lib kmlTable) true ⟨none, .normal⟩ twoPlaces = .ok (cutText ++ endText) := by decide +kernel

theorem utf8_append (s t : Str) : utf8 (s ++ t) = utf8 s ++ utf8 t := List.flatMap_append

private theorem notKmz : ¬ KmzName target.2 := by rw [← C42_suffix]; decide

private theorem cut_file (W : Etree) (h : toString W true ⟨none, .normal⟩ twoPlaces = .ok (cutText ++ endText)) (fs : FS) :
    interrupted W (twoParts 131) fs target true ⟨none, .normal⟩ twoPlaces 2 target = some (.plain (utf8 cutText)) := by
  have hw := writeEffects_eq W (twoParts 131) target true ⟨none, .normal⟩ twoPlaces
  rw [h] at hw
  simp only [mt (C42_suffix target.2).mp notKmz, if_false] at hw
  unfold interrupted
  rw [hw]
  have h1 : (utf8 (cutText ++ endText)).take 131 = utf8 cutText := by
    rw [utf8_append]
    exact List.take_left' (by decide +kernel)
  simp [effects, Effect.apply, Effect.path, Effect.file, twoParts, h1]

private def cutElem : Option Xml := Std.buildSome (Std.lexSome (cutText.length + 1) (Std.lineEnds false cutText)) []

private theorem cutElem_read (strict : Bool) :
    (cutElem.bind fun e => ((parseRoot (F := Fix) none none strict e).toOption.map placeNames)) = some [.str (s% "a")] := by
  cases strict <;> decide +kernel

private theorem recovering_text (m : Prefixes) (s : Str) : (recoverer m).recovering (.plain (utf8 s)) =
    match Std.buildSome (Std.lexSome (s.length + 1) (Std.lineEnds false s)) [] with
      | some e => .ok e
      | none => .error (.xml 0) := by
  simp only [recoverer]
  rw [C42_text]
  simp only [List.size_toArray]
  cases Std.buildSome (Std.lexSome (s.length + 1) (Std.lineEnds false s)) [] <;> rfl

/-- **C80, finding.** With a parser that completes what is missing, as `lxml`'s does with `recover=True`, a document
that was not completely written is opened without an error, also in strict mode, and has lost a placemark. -/
theorem C80_recovered (fs : FS) :
    placeNames twoPlaces = [.str (s% "a"), .str (s% "b")] ∧
    ∀ strict v, ((kmlParse (recoverer kmlTable) (interrupted (recoverer kmlTable) (twoParts 131) fs target true ⟨none, .normal⟩ twoPlaces 2)
      target none none strict v).1.toOption.map placeNames) = some [.str (s% "a")] := by
  refine ⟨by decide +kernel, ?_⟩
  intro strict v
  have hf := cut_file (recoverer kmlTable) twoPlaces_text fs
  generalize interrupted (recoverer kmlTable) (twoParts 131) fs target true ⟨none, .normal⟩ twoPlaces 2 = fs' at hf
  have hr := recovering_text kmlTable cutText
  have hc := cutElem_read strict
  cases he : cutElem with
  | none => rw [he] at hc; cases hc
  | some e =>
    have he' : Std.buildSome (Std.lexSome (cutText.length + 1) (Std.lineEnds false cutText)) [] = some e := he
    rw [he'] at hr
    rw [he] at hc
    have hl : loadRoot (recoverer kmlTable) fs' target strict v = .ok e := by
      have hv : validate (recoverer kmlTable) fs' none (some e) none = .ok none := rfl
      simp only [loadRoot, parseAndValidate, openFile, hf, hr, hv, ite_self]
    simp only [kmlParse, hl]
    simp only [Option.bind_some] at hc
    rw [← hc]
    cases parseRoot (F := Fix) none none strict e <;> rfl

private theorem utf8_proper (a b : Str) (h : (utf8 b).length ≠ 0) : utf8 a ≠ utf8 (a ++ b) := by
  rw [utf8_append]
  intro he
  have := congrArg List.length he
  rw [List.length_append] at this
  omega

private theorem rejected_root {m : Prefixes} {fs : FS} {p : Str × Str} {b : Bytes} {e : FErr} {strict : Bool} {v : Option Bool}
    (hf : fs p = some (.plain b)) (hb : Std.parseFile (.plain b) = .error e) : loadRoot (Std.lib m) fs p strict v = .error e := by
  have h1 : (Std.lib m).recovering (.plain b) = .error .typeError := rfl
  have h2 : (Std.lib m).plain (.plain b) = .error e := hb
  simp only [loadRoot, parseAndValidate, openFile, hf, h1, h2]

/-- With `ElementTree` the same file is rejected. -/
example (fs : FS) (strict : Bool) (v : Option Bool) :
    (kmlParse (F := Fix) (Std.lib kmlTable) (interrupted (Std.lib kmlTable) (twoParts 131) fs target true ⟨none, .normal⟩ twoPlaces 2)
      target none none strict v).1 = .error (.xml 0) := by
  have hf := cut_file (Std.lib kmlTable) twoPlaces_text_std fs
  generalize interrupted (Std.lib kmlTable) (twoParts 131) fs target true ⟨none, .normal⟩ twoPlaces 2 = fs' at hf
  have ht : (Std.fromstring (cutText ++ endText)).toOption.isSome = true := by decide +kernel
  cases he : Std.fromstring (cutText ++ endText) with
  | error x => rw [he] at ht; cases ht
  | ok e =>
    have hp := Std.parseFile_prefix he (b := utf8 cutText) ⟨utf8 endText, (utf8_append _ _).symm⟩
      (utf8_proper _ _ (by decide +kernel))
    have hr := rejected_root (m := kmlTable) (strict := strict) (v := v) hf hp
    simp only [kmlParse, hr]

/-- The document of C67 meets the hypotheses of `C80_detected`, with the prefixes that `ElementTree` starts with. -/
example (io : Io) (fs : FS) (pp : Bool) (o : Opts) (n : Nat) :
    (n = 0 ∧ interrupted (Std.lib Std.wellKnown) io fs target pp o textKml n = fs) ∨
    interrupted (Std.lib Std.wellKnown) io fs target pp o textKml n target = (kmlWrite (Std.lib Std.wellKnown) fs target pp o textKml).1 target ∨
    ∀ ns' nss' strict v, (kmlParse (F := Fix) (Std.lib Std.wellKnown) (interrupted (Std.lib Std.wellKnown) io fs target pp o textKml n) target ns' nss' strict v).1 =
      .error (.xml 0) := by
  rw [textKml_obj]
  exact C80_detected wellKnown_usable.1 wellKnown_usable.2 C67_textKml.1 C67_textKml.2.1 io fs target notKmz pp o n

/-- Two documents, written to two files at the same time: the effects in some order. -/
example (fs : FS) : effects fs [.truncate (s% "", s% "a"), .truncate (s% "", s% "b"), .append (s% "", s% "a") [1, 2], .append (s% "", s% "b") [3],
      .append (s% "", s% "a") [4]] (s% "", s% "a") = some (.plain [1, 2, 4]) := by
  rw [effects_path]
  rfl

end Verif
