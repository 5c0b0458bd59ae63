import Verif.Ext
import Verif.Lemmas.Iso

/-!
# A concrete instance of the external world

Fixed-point numbers with six decimals and a NaN, and an ISO 8601 reader.  This
shows that the laws in `LawfulExt` are consistent, and is used for the concrete
cases beside the theorems.  It is not a model of IEEE floats.
-/

namespace Verif

/-- `none` is NaN, `some n` is `n / 10^6`. -/
structure Fix where
  val : Option Int
deriving DecidableEq, Repr

namespace Fix

/-- The number of micro-units. -/
def scale : Nat := 1000000

/-- `m / 10^p` in positional notation. -/
def dec (p m : Nat) : Str :=
  natRepr (m / 10 ^ p) ++ (if p = 0 then [] else '.' :: pad p (m % 10 ^ p))

/-- Sign. -/
def sgn (neg : Bool) (s : Str) : Str := if neg then '-' :: s else s

/-- `str(f)`. -/
def repr : Fix → Str
  | ⟨none⟩ => s% "nan"
  | ⟨some n⟩ => sgn (decide (n < 0)) (dec 6 n.natAbs)

/-- `n / d` rounded half to even. -/
def roundDiv (n d : Nat) : Nat :=
  let q := n / d
  let r := n % d
  if 2 * r < d then q else if 2 * r > d then q + 1 else if q % 2 = 0 then q else q + 1

/-- Fixed-point output. -/
def fixed (p : Nat) : Fix → Str
  | ⟨none⟩ => s% "nan"
  | ⟨some n⟩ => sgn (decide (n < 0)) (dec p (roundDiv (n.natAbs * 10 ^ p) scale))

/-- Unsigned decimal numbers, in micro-units. -/
def parseU (s : Str) : Option Nat :=
  match splitOn '.' s with
  | [a] => (digitsVal 0 false a).map (· * scale)
  | [a, b] => match digitsVal 0 false a, digitsVal 0 false b with
    | some x, some y => some ((x * 10 ^ b.length + y) * scale / 10 ^ b.length)
    | _, _ => none
  | _ => none

/-- `float(s)`. -/
def parse (s : Str) : Option Fix :=
  if s = s% "nan" then some ⟨none⟩
  else match s with
    | '-' :: r => (parseU r).map fun n : Nat => ⟨some (-(Int.ofNat n))⟩
    | r => (parseU r).map fun n : Nat => ⟨some (Int.ofNat n)⟩

/-- `==`. -/
def beq : Fix → Fix → Bool
  | ⟨some a⟩, ⟨some b⟩ => a == b
  | _, _ => false

/-- Two digits and a following character. -/
def t2 (c : Char) (s : Str) : Option (Nat × Str) :=
  match take2 s with
  | some (n, d :: r) => if d = c then some (n, r) else none
  | _ => none

/-- The date part up to `T`. -/
def isoD (s : Str) : Option (Date × Str) :=
  match take4 s with
  | some (y, '-' :: r) => match t2 '-' r with
    | some (m, r) => match t2 'T' r with
      | some (d, r) => some (⟨y, m, d⟩, r)
      | none => none
    | none => none
  | _ => none

/-- The digits at the front, and the rest. -/
def spanDigits : Str → Str × Str
  | [] => ([], [])
  | c :: r => if (digitVal c).isSome then (c :: (spanDigits r).1, (spanDigits r).2) else ([], c :: r)

/-- The microseconds: up to six digits after a point. -/
def isoU : Str → Option (Nat × Str)
  | '.' :: r =>
    if (spanDigits r).1 = [] ∨ 6 < (spanDigits r).1.length then none
    else some (digitsNum 0 (spanDigits r).1 * 10 ^ (6 - (spanDigits r).1.length), (spanDigits r).2)
  | r => some (0, r)

/-- The offset; missing means UTC. -/
def isoO : Str → Option Int
  | [] => some 0
  | ['Z'] => some 0
  | '+' :: r => match t2 ':' r with
    | some (a, r) => match take2 r with
      | some (b, []) => some (Int.ofNat (a * 60 + b))
      | _ => none
    | none => none
  | '-' :: r => match t2 ':' r with
    | some (a, r) => match take2 r with
      | some (b, []) => some (-(Int.ofNat (a * 60 + b)))
      | _ => none
    | none => none
  | _ => none

/-- Decidable validity. -/
instance (t : Time) : Decidable t.Valid := by
  unfold Time.Valid
  have : Decidable (∀ o, t.off = some o → -1440 < o ∧ o < 1440) :=
    match h : t.off with
    | none => isTrue (by simp)
    | some o => if h2 : -1440 < o ∧ o < 1440 then isTrue (by simpa using h2)
        else isFalse (by simpa using h2)
  infer_instance

/-- ISO 8601 date-times. -/
def isoParse (s : Str) : Option (Date × Time) :=
  match isoD s with
  | none => none
  | some (d, r) => match t2 ':' r with
    | none => none
    | some (h, r) => match t2 ':' r with
      | none => none
      | some (mi, r) => match take2 r with
        | none => none
        | some (s, r) => match isoU r with
          | none => none
          | some (us, r) => match isoO r with
            | none => none
            | some o =>
              if d.Valid ∧ (⟨h, mi, s, us, some o⟩ : Time).Valid then
                some (d, ⟨h, mi, s, us, some o⟩) else none

instance : PyExt Fix where
  repr := repr
  parse := parse
  fixed := fixed
  ofInt i := ⟨some (i * 1000000)⟩
  ofDec n d := ⟨some (n * 1000000 / (10 ^ d : Nat))⟩
  beq := beq
  truthy f := decide (f.val ≠ some 0)
  isNaN f := f.val.isNone
  arrowGet := isoParse

/-! ## The laws -/

theorem dec_chars {p m : Nat} : ∀ c ∈ dec p m, c = '.' ∨ ∃ d, digitVal c = some d := by
  intro c hc
  unfold dec at hc
  rcases List.mem_append.mp hc with h | h
  · exact Or.inr (natRepr_digits _ c h)
  · split at h
    · simp at h
    · rcases List.mem_cons.mp h with h | h
      · exact Or.inl h
      · exact Or.inr (pad_digits _ _ c h)

theorem dec_head {p m : Nat} : ∃ c r d, dec p m = c :: r ∧ digitVal c = some d := by
  unfold dec
  cases h : natRepr (m / 10 ^ p) with
  | nil => exact absurd h (natRepr_ne_nil _)
  | cons c r =>
    obtain ⟨d, hd⟩ := natRepr_digits (m / 10 ^ p) c (by simp [h])
    exact ⟨c, _, d, rfl, hd⟩

theorem plain_sgn_dec (b : Bool) (p m : Nat) : Plain (sgn b (dec p m)) := by
  have hplain : ∀ c ∈ dec p m, isSpace c = false ∧ c ≠ ',' := by
    intro c hc
    rcases dec_chars c hc with rfl | ⟨d, hd⟩
    · decide
    · exact ⟨digit_noSpace hd, digit_ne hd (by decide)⟩
  obtain ⟨c, r, d, h, _⟩ := dec_head (p := p) (m := m)
  cases b with
  | false => exact ⟨by simp [sgn, h], hplain⟩
  | true =>
    refine ⟨by simp [sgn], ?_⟩
    intro x hx
    simp only [sgn, if_true] at hx
    rcases List.mem_cons.mp hx with rfl | hx
    · decide
    · exact hplain x hx

theorem parseU_dec (p m : Nat) :
    parseU (dec p m) = some (if p = 0 then m * scale else m * scale / 10 ^ p) := by
  unfold parseU dec
  by_cases hp : p = 0
  · subst hp
    simp only [if_true, List.append_nil, Nat.pow_zero, Nat.div_one]
    rw [splitOn_noSep ((natRepr_digits _).not_mem (by decide))]
    simp [digitsVal_natRepr]
  · simp only [hp, if_false]
    rw [splitOn_append_sep ((natRepr_digits _).not_mem (by decide)),
      splitOn_noSep ((pad_digits _ _).not_mem (by decide))]
    have hlt : m % 10 ^ p < 10 ^ p := Nat.mod_lt _ (Nat.pow_pos (by decide))
    simp only [digitsVal_natRepr, digitsVal_of_digits (pad_digits _ _) 0 false (Or.inl (pad_ne_nil _ _)),
      digitsNum_pad, pad_length (by omega : 1 ≤ p) hlt]
    have : m / 10 ^ p * 10 ^ p + m % 10 ^ p = m := by
      rw [Nat.mul_comm]; exact Nat.div_add_mod m (10 ^ p)
    rw [this]

theorem parse_sgn_dec (b : Bool) (p m : Nat) :
    parse (sgn b (dec p m)) = some ⟨some
      (let n := Int.ofNat (if p = 0 then m * scale else m * scale / 10 ^ p)
       if b then -n else n)⟩ := by
  obtain ⟨c, r, d, h, hd⟩ := dec_head (p := p) (m := m)
  have hu := parseU_dec p m
  unfold parse
  cases b with
  | true =>
    have : sgn true (dec p m) = '-' :: dec p m := rfl
    rw [this, if_neg (by simp)]
    simp [hu]
  | false =>
    have : sgn false (dec p m) = dec p m := rfl
    rw [this, if_neg]
    · rw [h] at hu ⊢
      have hc : c ≠ '-' := digit_ne hd (by decide)
      split
      · rename_i heq; simp at heq; exact absurd heq.1 hc
      · rw [hu]; simp
    · intro hh
      rw [h] at hh
      have : c = 'n' := by
        have := congrArg List.head? hh; simpa using this
      subst this
      have : digitVal 'n' = none := by decide
      rw [this] at hd; cases hd

theorem parse_repr (f : Fix) : parse (repr f) = some f := by
  rcases f with ⟨_ | n⟩
  · decide
  · show parse (sgn _ (dec 6 n.natAbs)) = _
    rw [parse_sgn_dec]
    have : n.natAbs * scale / 10 ^ 6 = n.natAbs := by
      have : (10 : Nat) ^ 6 = scale := by decide
      rw [this]; exact Nat.mul_div_cancel _ (by decide)
    simp only [Nat.reduceEqDiff, if_false, this, decide_eq_true_eq, Option.some.injEq, Fix.mk.injEq]
    split <;> (rw [Int.ofNat_eq_natCast]; omega)

theorem parse_intRepr (i : Int) : parse (intRepr i) = some ⟨some (i * 1000000)⟩ := by
  have : intRepr i = sgn (decide (i < 0)) (dec 0 i.natAbs) := by
    unfold intRepr sgn dec
    simp
  rw [this, parse_sgn_dec]
  simp only [if_true, decide_eq_true_eq, Option.some.injEq, Fix.mk.injEq, scale, Int.ofNat_eq_natCast]
  split <;> omega

theorem t2_pad {n : Nat} (h : n < 100) (c : Char) (r : Str) : t2 c (pad 2 n ++ c :: r) = some (n, r) := by
  unfold t2; rw [take2_pad h]; simp

theorem spanDigits_append {ds r : Str} (h : Digits ds) (hr : ∀ c, r.head? = some c → digitVal c = none) :
    spanDigits (ds ++ r) = (ds, r) := by
  induction ds with
  | nil =>
    cases r with
    | nil => rfl
    | cons c r => simp [spanDigits, hr c rfl]
  | cons c ds ih =>
    obtain ⟨d, hd⟩ := h c (by simp)
    have := ih fun x hx => h x (by simp [hx])
    simp [spanDigits, hd, this]

theorem isoU_digits {ds r : Str} (h : Digits ds) (hne : ds ≠ []) (hl : ds.length ≤ 6)
    (hr : ∀ c, r.head? = some c → digitVal c = none) :
    isoU ('.' :: (ds ++ r)) = some (digitsNum 0 ds * 10 ^ (6 - ds.length), r) := by
  simp only [isoU, spanDigits_append h hr]
  rw [if_neg]
  intro h
  rcases h with h | h
  · exact hne h
  · omega

theorem isoU_none {r : Str} (h : r.head? ≠ some '.') : isoU r = some (0, r) := by
  unfold isoU
  split
  · simp at h
  · rfl

theorem isoOff_head (o : Option Int) : ∀ c, (isoOff o).head? = some c → c = '+' ∨ c = '-' := by
  intro c hc
  cases o with
  | none => simp [isoOff] at hc
  | some o => by_cases ho : o < 0 <;> simp [isoOff, ho] at hc <;> simp [← hc]

theorem isoU_isoO {us : Nat} (h : us < 1000000) (o : Option Int) :
    isoU ((if us = 0 then [] else '.' :: pad 6 us) ++ isoOff o) = some (us, isoOff o) := by
  by_cases h0 : us = 0
  · subst h0
    rw [if_pos rfl, List.nil_append]
    exact isoU_none fun h => by rcases isoOff_head o _ h with h | h <;> exact absurd h (by decide)
  · have hl : (pad 6 us).length = 6 := pad_length (by decide) h
    rw [if_neg h0, List.cons_append, isoU_digits (pad_digits _ _) (pad_ne_nil _ _) (by omega), digitsNum_pad, hl]
    · simp
    · intro c hc
      rcases isoOff_head o _ hc with rfl | rfl <;> decide

theorem isoO_isoOff {o : Int} (h1 : -1440 < o) (h2 : o < 1440) : isoO (isoOff (some o)) = some o := by
  have a1 : o.natAbs / 60 < 100 := by omega
  have a2 : o.natAbs % 60 < 100 := by omega
  have a3 : take2 (pad 2 (o.natAbs % 60)) = some (o.natAbs % 60, []) := by
    have := take2_pad a2 []; rwa [List.append_nil] at this
  unfold isoOff
  by_cases ho : o < 0
  · simp only [ho, if_true, List.cons_append, isoO, t2_pad a1, a3]
    rw [Int.ofNat_eq_natCast]
    congr 1; omega
  · simp only [ho, if_false, List.cons_append, isoO, t2_pad a1, a3]
    rw [Int.ofNat_eq_natCast]
    congr 1; omega

theorem isoParse_iso {d : Date} {t : Time} (hd : d.Valid) (ht : t.Valid) :
    isoParse (isoDateTime d t) = some (d, { t with off := some (t.off.getD 0) }) := by
  have hd' := hd
  obtain ⟨h1, h2, h3, h4, h5, h6⟩ := hd
  have h7 : d.d < 100 := by
    have : daysInMonth d.y d.m ≤ 31 := by unfold daysInMonth; split <;> (try split) <;> omega
    omega
  obtain ⟨t1, t2', t3, t4, t5⟩ := ht
  have hD : ∀ r, isoD (isoDate d ++ 'T' :: r) = some (d, r) := by
    intro r
    unfold isoD isoDate
    simp only [List.append_assoc, List.cons_append, take4_pad (show d.y < 10000 by omega),
      t2_pad (show d.m < 100 by omega), t2_pad h7]
  unfold isoParse isoDateTime
  simp only [List.append_assoc, List.cons_append, hD, t2_pad (show t.h < 100 by omega),
    t2_pad (show t.mi < 100 by omega), take2_pad (show t.s < 100 by omega), isoU_isoO t4]
  cases ho : t.off with
  | none =>
    simp only [isoOff, isoO, Option.getD_none]
    rw [if_pos]
    exact ⟨hd', t1, t2', t3, t4, by intro o h; simp at h; omega⟩
  | some o =>
    obtain ⟨o1, o2⟩ := t5 o ho
    simp only [isoO_isoOff o1 o2, Option.getD_some]
    rw [if_pos]
    exact ⟨hd', t1, t2', t3, t4, by intro o' h; simp at h; omega⟩

theorem isoParse_valid {s : Str} {d : Date} {t : Time} (h : isoParse s = some (d, t)) :
    d.Valid ∧ t.Valid ∧ t.off.isSome := by
  unfold isoParse at h
  repeat' (split at h <;> try (simp at h; done))
  simp only [Option.some.injEq, Prod.mk.injEq] at h
  rename_i hv
  obtain ⟨rfl, rfl⟩ := h
  exact ⟨hv.1, hv.2, rfl⟩

instance : LawfulExt Fix where
  parse_repr := parse_repr
  repr_plain := by
    rintro ⟨_ | n⟩
    · show Plain (s% "nan"); decide
    · exact plain_sgn_dec _ _ _
  parse_int := parse_intRepr
  fixed_plain := by
    rintro p ⟨_ | n⟩
    · show Plain (s% "nan"); decide
    · exact plain_sgn_dec _ _ _
  fixed_parse := by
    rintro p ⟨_ | n⟩
    · exact ⟨⟨none⟩, by show parse (s% "nan") = _; decide⟩
    · exact ⟨_, parse_sgn_dec _ _ _⟩
  parse_nil := by show parse [] = none; decide
  beq_refl := by
    rintro ⟨_ | n⟩
    · rfl
    · show (n == n) = true; simp
  beq_symm := by
    rintro ⟨_ | n⟩ ⟨_ | m⟩ <;> try rfl
    show (n == m) = (m == n)
    rw [Bool.eq_iff_iff]; simp only [beq_iff_eq]; exact eq_comm
  beq_nan := by
    rintro ⟨_ | n⟩ g h
    · rfl
    · cases h
  arrow_iso := by
    intro d t s hd ht ho hs
    show isoParse _ = _
    rw [(isoDateTime_iff hd ht).mp hs, isoParse_iso hd ht]
    obtain ⟨h, mi, se, us, off⟩ := t
    cases off with
    | none => cases ho
    | some o => rfl
  arrow_naive := by
    intro d t s hd ht ho hs
    show isoParse _ = _
    rw [(isoDateTime_iff hd ht).mp hs, isoParse_iso hd ht, ho]; rfl
  arrow_valid := fun s d t h => isoParse_valid h

end Fix

end Verif
