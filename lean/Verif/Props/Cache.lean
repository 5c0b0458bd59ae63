import Verif.Spec.Recent
import Verif.Props.Files

/-!
# C81: The cache of schemas
-/

set_option linter.unusedSectionVars false
set_option linter.unusedSimpArgs false

namespace Verif

open Spec

variable {F : Type} [PyExt F]

theorem dget_mem_pair {α β : Type} [DecidableEq α] {k : α} {v : β} : ∀ {d : List (α × β)}, dget k d = some v → (k, v) ∈ d
  | [], h => by simp [dget] at h
  | (j, w) :: d, h => by
    simp only [dget] at h
    split at h
    · rename_i e
      cases h; subst e
      exact List.mem_cons_self
    · exact List.mem_cons_of_mem _ (dget_mem_pair h)

theorem dget_keys {α β : Type} [DecidableEq α] {k : α} : ∀ {d : List (α × β)}, dget k d = none ↔ k ∉ d.map (·.1)
  | [] => by simp [dget]
  | (j, w) :: d => by
    simp only [dget, List.map_cons, List.mem_cons, not_or]
    by_cases h : j = k
    · simp [h]
    · rw [if_neg h, dget_keys]
      exact ⟨fun g => ⟨fun e => h e.symm, g⟩, fun g => g.2⟩

/-! ## Which schema is used -/

/-- Every entry of the cache satisfies `P`. -/
private def Holds (P : SchemaKey → XSchema → Prop) (s : Session) : Prop := ∀ q ∈ s.cache, P q.1 q.2

private theorem fetch_holds {P : SchemaKey → XSchema → Prop} {s : Session} (h : Holds P s) (k : SchemaKey)
    (hn : ∀ S, s.etree.schema k = .schema S → P k S) : Holds P (fetch s k).1 := by
  unfold fetch
  cases hd : dget k s.cache with
  | some S =>
    intro q hq
    rcases List.mem_cons.mp hq with rfl | hq
    · exact h _ (dget_mem_pair hd)
    · exact h _ (List.mem_filter.mp hq).1
  | none =>
    cases hs : s.etree.schema k with
    | missing => exact h
    | error e => exact h
    | schema S =>
      intro q hq
      rcases List.mem_cons.mp (List.mem_of_mem_take hq) with rfl | hq
      · exact hn S hs
      · exact h _ hq

private theorem act_holds {P : SchemaKey → XSchema → Prop} {s : Session} (h : Holds P s) (x : Event)
    (hn : ∀ k S, s.etree.schema k = .schema S → P k S) : Holds P (act s x) := by
  have key : ∀ o : Option SchemaKey, Holds P (match o with
      | some k => (fetch s k).1
      | none => s) := by
    intro o
    cases o with
    | none => exact h
    | some k => exact fetch_holds h k (hn k)
  cases x with
  | files fs => exact h
  | library lib => exact h
  | clear => intro q hq; cases hq
  | validate k e f => exact key _
  | parse p st v => exact key _
  | get k => exact key (some k)

/-- What `get_schema_parser` returns: what is stored, or else what is loaded. -/
theorem fetch_result (s : Session) (k : SchemaKey) :
    (fetch s k).2 = match dget k s.cache with
      | some S => .schema S
      | none => s.etree.schema k := by
  unfold fetch
  cases dget k s.cache with
  | some S => rfl
  | none => cases hs : s.etree.schema k <;> rfl

/-- **C81.** In every history, a schema that is used without being loaded was loaded, for the same argument, at
an earlier time since the cache was cleared. -/
theorem C81_origin (s : Session) (h0 : s.cache = []) (h : List Event) (k : SchemaKey) (S : XSchema)
    (hf : (fetch (after s h) k).2 = .schema S) :
    ∃ later earlier, h = later ++ earlier ∧ (∀ x ∈ later, x ≠ .clear) ∧ (after s earlier).etree.schema k = .schema S := by
  have key : ∀ h : List Event, Holds (fun k S => ∃ later earlier, h = later ++ earlier ∧ (∀ x ∈ later, x ≠ .clear) ∧
      (after s earlier).etree.schema k = .schema S) (after s h) := by
    intro h
    induction h with
    | nil => intro q hq; simp only [after, h0] at hq; cases hq
    | cons x h ih =>
      by_cases hx : x = .clear
      · subst hx
        intro q hq
        cases hq
      · show Holds _ (act (after s h) x)
        refine act_holds ?_ x ?_
        · intro q hq
          obtain ⟨l, e, he, hl, hS⟩ := ih q hq
          refine ⟨x :: l, e, by rw [he]; rfl, ?_, hS⟩
          intro y hy
          rcases List.mem_cons.mp hy with rfl | hy
          · exact hx
          · exact hl y hy
        · intro k S hS
          exact ⟨[x], h, rfl, by simpa using hx, hS⟩
  rw [fetch_result] at hf
  cases hd : dget k (after s h).cache with
  | some T =>
    rw [hd] at hf
    cases hf
    exact key h _ (dget_mem_pair hd)
  | none =>
    rw [hd] at hf
    exact ⟨[], h, rfl, by simp, hf⟩

private theorem same_schema {s : Session} {k : SchemaKey} (h : (fetch s k).2 = s.etree.schema k) (fs : FS) (e : Option Xml) (f : Option (Str × Str)) :
    validate { s.etree with schema := fun k => (fetch s k).2 } fs k e f = validate s.etree fs k e f := by
  simp only [validate, h]

private theorem same_parse {s : Session} (h : (fetch s none).2 = s.etree.schema none) (p : Str × Str) (ns : Option Str) (nss : Option NsMap) (strict : Bool)
    (v : Option Bool) : parseWith (F := F) s p ns nss strict v = kmlParse s.etree s.fs p ns nss strict v := by
  simp only [parseWith, kmlParse, loadRoot, parseAndValidate, same_schema h]

private theorem transparent (s : Session) (h0 : s.cache = []) (h : List Event)
    (hc : ∀ later earlier, h = later ++ earlier → ∀ k, (after s earlier).etree.schema k = (after s h).etree.schema k) (k : SchemaKey) :
    (fetch (after s h) k).2 = (after s h).etree.schema k := by
  cases hf : (fetch (after s h) k).2 with
  | schema S =>
    obtain ⟨l, e, he, -, hS⟩ := C81_origin s h0 h k S hf
    rw [← hc l e he k, hS]
  | missing =>
    rw [fetch_result] at hf
    cases hd : dget k (after s h).cache with
    | some T => rw [hd] at hf; cases hf
    | none => rw [hd] at hf; exact hf.symm
  | error x =>
    rw [fetch_result] at hf
    cases hd : dget k (after s h).cache with
    | some T => rw [hd] at hf; cases hf
    | none => rw [hd] at hf; exact hf.symm

/-- **C81.** As long as the schemas in the files stay the same, `validate` and `KML.parse` give what they would give without
a cache, after every history of calls. -/
theorem C81_transparent (s : Session) (h0 : s.cache = []) (h : List Event)
    (hc : ∀ later earlier, h = later ++ earlier → ∀ k, (after s earlier).etree.schema k = (after s h).etree.schema k) :
    (∀ k e f, validateWith (after s h) k e f = validate (after s h).etree (after s h).fs k e f) ∧
    ∀ p ns nss strict v, parseWith (F := F) (after s h) p ns nss strict v = kmlParse (after s h).etree (after s h).fs p ns nss strict v :=
  ⟨fun k e f => same_schema (transparent s h0 h hc k) _ e f,
    fun p ns nss strict v => same_parse (transparent s h0 h hc none) p ns nss strict v⟩

/-- **C81.** `asks` says which schema a call needs: without it, the result is the same for all schemas; with it,
an error in loading this schema is raised. -/
theorem C81_asks (s : Session) (fs : FS) (lib : Etree) (hs : s.fs = fs) (hl : s.etree = lib) :
    (∀ k e f, (asks s (.validate k e f) = none → ∀ g g', validate { lib with schema := g } fs k e f = validate { lib with schema := g' } fs k e f) ∧
      ∀ j, asks s (.validate k e f) = some j → ∀ g x, g j = .error x → validate { lib with schema := g } fs k e f = .error x) ∧
    ∀ p ns nss strict v, (asks s (.parse p strict v) = none → ∀ g g', kmlParse (F := F) { lib with schema := g } fs p ns nss strict v =
        kmlParse { lib with schema := g' } fs p ns nss strict v) ∧
      ∀ j, asks s (.parse p strict v) = some j → ∀ g n, g j = .error (.xml n) →
        (kmlParse (F := F) { lib with schema := g } fs p ns nss strict v).1 = .error (.xml n) := by
  subst hs hl
  refine ⟨fun k e f => ⟨fun h g g' => ?_, fun j h g x hg => ?_⟩, fun p ns nss strict v => ⟨fun h g g' => ?_, fun j h g n hg => ?_⟩⟩
  · simp only [asks] at h
    split at h
    · rename_i he
      rw [C43_usage _ _ _ _ _ he, C43_usage _ _ _ _ _ he]
    · cases h
  · simp only [asks] at h
    split at h
    · cases h
    · cases h
      rename_i he
      cases e <;> cases f <;> simp_all [validate]
  · simp only [asks] at h
    simp only [kmlParse, loadRoot, parseAndValidate]
    generalize (if strict = true ∧ v = none then some true else v) = w at h ⊢
    cases ho : openFile s.fs p s.etree.recovering with
    | error x => rfl
    | ok e =>
      rw [ho] at h
      split at h
      · cases h
      · rename_i hn
        simp only [if_neg hn]
  · simp only [asks] at h
    simp only [kmlParse, loadRoot, parseAndValidate]
    generalize (if strict = true ∧ v = none then some true else v) = w at h ⊢
    cases ho : openFile s.fs p s.etree.recovering with
    | error x =>
      rw [ho] at h
      split at h <;> cases h
    | ok e =>
      rw [ho] at h
      split at h
      · rename_i hn
        cases h
        subst hn
        simp only [if_true, validate_element, hg]
      · cases h

/-! ## What is remembered -/

private theorem filter_take {k : SchemaKey} : ∀ (n : Nat) {D : List SchemaKey}, D.Nodup →
    ((D.take (n + 1)).filter fun j => decide (j ≠ k)).take n = (D.filter fun j => decide (j ≠ k)).take n
  | 0, _, _ => by simp
  | n + 1, [], _ => by simp
  | n + 1, a :: D, hd => by
    obtain ⟨ha, hd⟩ := List.nodup_cons.mp hd
    rw [List.take_succ_cons, List.filter_cons, List.filter_cons]
    by_cases h : a = k
    · subst h
      have e1 : (D.filter fun j => decide (j ≠ a)) = D :=
        List.filter_eq_self.mpr fun j hj => by simpa using fun e : j = a => ha (e ▸ hj)
      have e2 : ((D.take (n + 1)).filter fun j => decide (j ≠ a)) = D.take (n + 1) :=
        List.filter_eq_self.mpr fun j hj => by simpa using fun e : j = a => ha (e ▸ List.mem_of_mem_take hj)
      simp only [ne_eq, not_true_eq_false, decide_false, Bool.false_eq_true, if_false]
      rw [e1, e2, List.take_take, Nat.min_self]
    · simp only [ne_eq, h, not_false_eq_true, decide_true, if_true, List.take_succ_cons]
      congr 1
      exact filter_take n hd

private theorem distinct_nodup : ∀ l : List SchemaKey, (distinct l).Nodup
  | [] => List.nodup_nil
  | k :: l => by
    rw [distinct, List.nodup_cons]
    exact ⟨by simp, (distinct_nodup l).filter _⟩

private theorem fetch_keys {s : Session} {k : SchemaKey} {S : XSchema} (h : (fetch s k).2 = .schema S) {D : List SchemaKey} (hD : D.Nodup)
    (hk : s.cache.map (·.1) = D.take 16) :
    (fetch s k).1.cache.map (·.1) = (k :: D.filter fun j => decide (j ≠ k)).take 16 := by
  rw [List.take_succ_cons, ← filter_take 15 hD, ← hk]
  have hlen : s.cache.length ≤ 16 := by
    have := congrArg List.length hk
    rw [List.length_map, List.length_take] at this
    omega
  unfold fetch at h ⊢
  cases hd : dget k s.cache with
  | some T =>
    simp only [List.map_cons]
    congr 1
    have hm : k ∈ s.cache.map (·.1) := List.mem_map.mpr ⟨_, dget_mem_pair hd, rfl⟩
    rw [List.take_of_length_le]
    · rw [List.filter_map]
      rfl
    · have hlt : ((s.cache.map (·.1)).filter fun j => decide (j ≠ k)).length < (s.cache.map (·.1)).length := by
        exact List.length_filter_lt_length_iff_exists.mpr ⟨k, hm, by simp⟩
      rw [List.length_map] at hlt
      omega
  | none =>
    rw [hd] at h
    simp only at h ⊢
    cases hs : s.etree.schema k with
    | missing => rw [hs] at h; cases h
    | error e => rw [hs] at h; cases h
    | schema T =>
      simp only [List.take_succ_cons, List.map_cons, List.map_take]
      congr 2
      exact (List.filter_eq_self.mpr fun j hj => by simpa using fun e : j = k => dget_keys.mp hd (e ▸ hj)).symm

private theorem fetch_none {s : Session} {k : SchemaKey} (h : ∀ S, (fetch s k).2 ≠ .schema S) : (fetch s k).1 = s := by
  unfold fetch at h ⊢
  cases hd : dget k s.cache with
  | some T => rw [hd] at h; exact absurd rfl (h T)
  | none =>
    rw [hd] at h
    simp only at h ⊢
    cases hs : s.etree.schema k with
    | missing => rfl
    | error e => rfl
    | schema T => rw [hs] at h; exact absurd rfl (h T)

/-- **C81.** The schemas that are remembered are those that were used last, at most 16. -/
theorem C81_keys (s : Session) (h0 : s.cache = []) (h : List Event) : (after s h).cache.map (·.1) = recent s h := by
  unfold recent
  induction h with
  | nil => simp [after, h0, used, distinct]
  | cons x h ih =>
    have key : ∀ o : Option SchemaKey,
        (match o with
          | some k => (fetch (after s h) k).1
          | none => after s h : Session).cache.map (·.1) =
        (distinct (match o with
          | some k => match (fetch (after s h) k).2 with
            | .schema _ => k :: used s h
            | _ => used s h
          | none => used s h)).take 16 := by
      intro o
      cases o with
      | none => exact ih
      | some k =>
        simp only
        cases hf : (fetch (after s h) k).2 with
        | schema S => exact fetch_keys hf (distinct_nodup _) ih
        | missing => rw [fetch_none fun S => by rw [hf]; exact nofun]; exact ih
        | error e => rw [fetch_none fun S => by rw [hf]; exact nofun]; exact ih
    cases x with
    | files fs => exact ih
    | library lib => exact ih
    | clear => simp [after, act, used, distinct]
    | validate k e f => exact key _
    | parse p st v => exact key _
    | get k => exact key (some k)

/-- **C81.** A schema that is not among these is loaded from the files as they are now: in particular after `cache_clear()`, when it
was not used before, or when loading it failed. -/
theorem C81_loaded (s : Session) (h0 : s.cache = []) (h : List Event) (k : SchemaKey) (hk : k ∉ recent s h) (e : Option Xml) (f : Option (Str × Str)) :
    validateWith (after s h) k e f = validate (after s h).etree (after s h).fs k e f := by
  refine same_schema ?_ _ e f
  rw [fetch_result, dget_keys.mpr (by rw [C81_keys s h0]; exact hk)]

/-- **C81, finding.** A schema that is remembered is used although its file has changed or is gone, and although
another XML library, perhaps without schemas, was set. -/
theorem C81_stale (s : Session) (h0 : s.cache = []) (h : List Event) (k : SchemaKey) (hk : k ∈ recent s h) :
    ∃ S, (fetch (after s h) k).2 = .schema S ∧
      ∀ fs lib e, validateWith (after s (.files fs :: .library lib :: h)) k (some e) none =
        if S.valid e then .ok (some true) else match handleValidation (S.log e) with
          | .error x => .error x
          | .ok _ => .error .assertionError := by
  cases hd : dget k (after s h).cache with
  | none => exact absurd (by rw [← C81_keys s h0 h] at hk; exact hk) (dget_keys.mp hd)
  | some S =>
    refine ⟨S, by rw [fetch_result, hd], ?_⟩
    intro fs lib e
    have hf : (fetch (after s (.files fs :: .library lib :: h)) k).2 = .schema S := by
      rw [fetch_result]
      show (match dget k (after s h).cache with
        | some S => SchemaResult.schema S
        | none => _) = _
      rw [hd]
    simp only [validateWith, validate_element, hf]
    cases handleValidation (S.log e) <;> rfl

/-! ## Cases -/

/-- A library that finds everything valid for the schema `a`, if there is such a file, and nothing for other schemas. -/
def pickyLib (fs : FS) : Etree :=
  { toyEtree (.new []) true with
    schema := fun k => match k with
      | some p => match fs p with
        | some f => .schema ⟨fun _ => decide (f = .plain [1]), fun _ => []⟩
        | none => .error .osError
      | none => .schema ⟨fun _ => true, fun _ => []⟩ }

def schemaPath (n : Nat) : SchemaKey := some (s% "", natRepr n)

def emptySession : Session := ⟨fun _ => none, pickyLib, []⟩

/-- The schema is used, then changed: the old one is used until the cache is cleared. -/
example :
    let h : List Event := [.get (schemaPath 0), .files fun _ => some (.plain [1])]
    schemaPath 0 ∈ recent emptySession h ∧
    (match validateWith (after emptySession (.files (fun _ => some (.plain [2])) :: h)) (schemaPath 0) (some (.new [])) none with
      | .ok (some true) => true
      | _ => false) = true ∧
    (match validateWith (after emptySession (.clear :: .files (fun _ => some (.plain [2])) :: h)) (schemaPath 0) (some (.new [])) none with
      | .error .assertionError => true
      | _ => false) = true := by
  decide +kernel

/-- Sixteen other schemas replace it; fifteen do not. -/
example :
    let h : List Event := [.get (schemaPath 0), .files fun _ => some (.plain [1])]
    schemaPath 0 ∉ recent emptySession ((List.range 16).map (fun n => Event.get (schemaPath (n + 1))) ++ h) ∧
    schemaPath 0 ∈ recent emptySession ((List.range 15).map (fun n => Event.get (schemaPath (n + 1))) ++ h) ∧
    schemaPath 0 ∈ recent emptySession ((List.range 8).map (fun n => Event.get (schemaPath (n + 1))) ++ .get (schemaPath 0) ::
      ((List.range 8).map (fun n => Event.get (schemaPath (n + 9))) ++ h)) := by
  decide +kernel

/-- A schema that could not be loaded is loaded when the file is there. -/
example : schemaPath 0 ∉ recent emptySession [.files fun _ => some (.plain [1]), .get (schemaPath 0)] := by
  decide +kernel

end Verif
