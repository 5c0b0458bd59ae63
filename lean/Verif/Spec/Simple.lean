import Verif.Spec.Valid
import Verif.Spec.Times
import Verif.Spec.Decimal
import Verif.Spec.Writing

/-!
# The simple types of the schemas: specification

The texts that are values of the simple types the schemas use, after XML Schema Part 2
and the definitions in /repo/fastkml/schema (ogckml22.xsd:32-181, kml22gx.xsd:33-59,
atom-author-link.xsd:46-64).  Types without a case here (`string`, `anyURI`, lists of
strings) accept every text.  That an `ID` is unique in the document is not covered.
-/

namespace Verif.Spec

variable {F : Type} [PyExt F]

/-- XML's whitespace. -/
def xmlSpaces : Str := [' ', '\t', '\n', '\r']

/-- The facet `whiteSpace="collapse"`: whitespace around the value does not count. -/
def Padded (R : Str → Prop) (s : Str) : Prop :=
  ∃ w u w', s = w ++ u ++ w' ∧ (∀ c ∈ w ++ w', c ∈ xmlSpaces) ∧ R u

/-- A sign. -/
def SignText (neg : Bool) (s : Str) : Prop :=
  match neg with
  | true => s = ['-']
  | false => s = [] ∨ s = ['+']

/-- `integer`: an optional sign and digits. -/
def IntegerText (i : Int) (s : Str) : Prop :=
  ∃ neg sg ds, s = sg ++ ds ∧ SignText neg sg ∧ ds ≠ [] ∧ DecDigits ds ∧
    i = if neg then -(positional ds : Int) else (positional ds : Int)

/-- Digits with an optional point; the number is `m / 10^k`. -/
def MantissaText (m k : Nat) (s : Str) : Prop :=
  ∃ a b, DecDigits a ∧ DecDigits b ∧ a ++ b ≠ [] ∧ m = positional (a ++ b) ∧ k = b.length ∧
    (s = a ++ '.' :: b ∨ b = [] ∧ s = a)

/-- An optional exponent. -/
def ExponentText (e : Int) (s : Str) : Prop :=
  s = [] ∧ e = 0 ∨ ∃ c t, (c = 'e' ∨ c = 'E') ∧ s = c :: t ∧ IntegerText e t

/-- The decimal notation of `± m / 10^k · 10^e`. -/
def DecimalText (neg : Bool) (m k : Nat) (e : Int) (s : Str) : Prop :=
  ∃ sg mt ex, s = sg ++ mt ++ ex ∧ SignText neg sg ∧ MantissaText m k mt ∧ ExponentText e ex

/-- `double` and `float`. -/
def DoubleText (s : Str) : Prop :=
  s ∈ [s% "INF", s% "-INF", s% "NaN"] ∨ ∃ neg m k e, DecimalText neg m k e s

/-- `lo ≤ ± m / 10^k · 10^e ≤ hi`. -/
def Between (lo hi : Int) (neg : Bool) (m k : Nat) (e : Int) : Prop :=
  let x : Int := (if neg then -(m : Int) else m) * 10 ^ e.toNat
  let d : Int := 10 ^ (k + (-e).toNat)
  lo * d ≤ x ∧ x ≤ hi * d

/-- A restriction of `double` to a range. -/
def RangeText (lo hi : Int) (s : Str) : Prop := ∃ neg m k e, DecimalText neg m k e s ∧ Between lo hi neg m k e

/-- `hexBinary` of length 4. -/
def ColorText (s : Str) : Prop :=
  s.length = 8 ∧ ∀ c ∈ s, ('0' ≤ c ∧ c ≤ '9') ∨ ('a' ≤ c ∧ c ≤ 'f') ∨ ('A' ≤ c ∧ c ≤ 'F')

/-- The year: at least four digits, no more than needed, not zero. -/
def YearText (y : Nat) (s : Str) : Prop :=
  ∃ sg ds, s = sg ++ ds ∧ (sg = [] ∨ sg = ['-']) ∧ DecDigits ds ∧ 4 ≤ ds.length ∧
    (4 < ds.length → ds.head? ≠ some '0') ∧ y = positional ds ∧ y ≠ 0

/-- A time zone: at most 14 hours. -/
def ZoneText (s : Str) : Prop :=
  s = [] ∨ s = ['Z'] ∨ ∃ sign h m x y, s = sign :: h ++ ':' :: m ∧ (sign = '+' ∨ sign = '-') ∧
    TwoDigits h x ∧ TwoDigits m y ∧ y < 60 ∧ 60 * x + y ≤ 840

/-- `YYYY-MM`. -/
def MonthText (y m : Nat) (s : Str) : Prop :=
  ∃ Y M, s = Y ++ '-' :: M ∧ YearText y Y ∧ TwoDigits M m ∧ 1 ≤ m ∧ m ≤ 12

/-- `YYYY-MM-DD`. -/
def DayText (s : Str) : Prop :=
  ∃ ym D y m d, s = ym ++ '-' :: D ∧ MonthText y m ym ∧ TwoDigits D d ∧ 1 ≤ d ∧ d ≤ daysInMonth y m

/-- `HH:MM:SS`, and a fraction. -/
def ClockText (s : Str) : Prop :=
  ∃ h mi sec frac x y z, s = h ++ ':' :: mi ++ ':' :: sec ++ frac ∧ TwoDigits h x ∧ TwoDigits mi y ∧ TwoDigits sec z ∧
    x < 24 ∧ y < 60 ∧ z < 60 ∧ (frac = [] ∨ ∃ ds, frac = '.' :: ds ∧ ds ≠ [] ∧ DecDigits ds)

/-- The union of `dateTime`, `date`, `gYearMonth` and `gYear` (ogckml22.xsd:102-104).
(`24:00:00` is left out.) -/
def MomentText (s : Str) : Prop :=
  ∃ u z, s = u ++ z ∧ ZoneText z ∧
    ((∃ d t, u = d ++ 'T' :: t ∧ DayText d ∧ ClockText t) ∨ DayText u ∨ (∃ y m, MonthText y m u) ∨ ∃ y, YearText y u)

/-- The characters that can begin a name (XML 1.0, without the colon). -/
def ncStart (c : Char) : Bool :=
  let n := c.toNat
  (65 ≤ n && n ≤ 90) || n == 95 || (97 ≤ n && n ≤ 122) || (0xC0 ≤ n && n ≤ 0xD6) || (0xD8 ≤ n && n ≤ 0xF6) ||
  (0xF8 ≤ n && n ≤ 0x2FF) || (0x370 ≤ n && n ≤ 0x37D) || (0x37F ≤ n && n ≤ 0x1FFF) || (0x200C ≤ n && n ≤ 0x200D) ||
  (0x2070 ≤ n && n ≤ 0x218F) || (0x2C00 ≤ n && n ≤ 0x2FEF) || (0x3001 ≤ n && n ≤ 0xD7FF) ||
  (0xF900 ≤ n && n ≤ 0xFDCF) || (0xFDF0 ≤ n && n ≤ 0xFFFD) || (0x10000 ≤ n && n ≤ 0xEFFFF)

/-- The characters of names. -/
def ncChar (c : Char) : Bool :=
  let n := c.toNat
  ncStart c || n == 45 || n == 46 || (48 ≤ n && n ≤ 57) || n == 0xB7 || (0x300 ≤ n && n ≤ 0x36F) ||
  (0x203F ≤ n && n ≤ 0x2040)

/-- `NCName`. -/
def NameText (s : Str) : Prop := ∃ c r, s = c :: r ∧ ncStart c = true ∧ ∀ d ∈ r, ncChar d = true

/-- Something, the separator, something (`.+/.+`, `.+@.+`). -/
def Around (sep : Char) (s : Str) : Prop :=
  ∃ a b, s = a ++ sep :: b ∧ a ≠ [] ∧ b ≠ [] ∧ ∀ c ∈ a ++ b, c ≠ '\n' ∧ c ≠ '\r'

/-- `[A-Za-z]{1,8}(-[A-Za-z0-9]{1,8})*`. -/
def LanguageText (s : Str) : Prop :=
  ∃ (a : Str) (l : List Str), s = a ++ (l.map fun w => '-' :: w).flatten ∧ 1 ≤ a.length ∧ a.length ≤ 8 ∧
    (∀ c ∈ a, ('a' ≤ c ∧ c ≤ 'z') ∨ ('A' ≤ c ∧ c ≤ 'Z')) ∧
    ∀ w ∈ l, 1 ≤ w.length ∧ w.length ≤ 8 ∧
      ∀ c ∈ w, ('a' ≤ c ∧ c ≤ 'z') ∨ ('A' ≤ c ∧ c ≤ 'Z') ∨ ('0' ≤ c ∧ c ≤ '9')

/-- The ranges of numbers. -/
def rangeOf : QN → Option (Int × Int)
  | .q .kml n =>
    if n = s% "anglepos90Type" then some (0, 90)
    else if n = s% "angle90Type" then some (-90, 90)
    else if n = s% "anglepos180Type" then some (0, 180)
    else if n = s% "angle180Type" then some (-180, 180)
    else if n = s% "angle360Type" then some (-360, 360)
    else none
  | .q .gx n => if n = s% "outerWidthType" then some (0, 1) else none
  | _ => none

/-- The text is a value of the simple type. -/
def lexOk (t : QN) (s : Str) : Prop :=
  match enumDecl t with
  | some e => s ∈ e.values
  | none =>
    if t = .q .xs (s% "boolean") then Padded (· ∈ [s% "true", s% "false", s% "0", s% "1"]) s
    else if t = .q .xs (s% "int") then Padded (fun u => ∃ i, IntegerText i u ∧ -2147483648 ≤ i ∧ i ≤ 2147483647) s
    else if t = .q .xs (s% "integer") then Padded (fun u => ∃ i, IntegerText i u) s
    else if t = .q .xs (s% "double") ∨ t = .q .xs (s% "float") then Padded DoubleText s
    else match rangeOf t with
      | some (lo, hi) => Padded (RangeText lo hi) s
      | none =>
        if t = .q .kml (s% "colorType") then Padded ColorText s
        else if t = .q .kml (s% "dateTimeType") then Padded MomentText s
        else if t = .q .xs (s% "ID") ∨ t = .q .xs (s% "NCName") then Padded NameText s
        else if t = .q .atom (s% "atomMediaType") then Around '/' s
        else if t = .q .atom (s% "atomEmailAddress") then Around '@' s
        else if t = .q .atom (s% "atomLanguageTag") then LanguageText s
        else True

/-! ## Values -/

/-- The value is one of the type: what is written for numbers and texts has the notation
of the type; integers and times are in its range.  Years before 1000 are excluded where
only the year, or the year and month, are written. -/
def Fine (t : QN) : Val Cls F → Prop
  | .str s => s ≠ [] → lexOk t s
  | .float f => lexOk t (PyExt.repr f)
  | .int i => (t = .q .xs (s% "int") → -2147483648 ≤ i ∧ i ≤ 2147483647) ∧
      ∀ lo hi, rangeOf t = some (lo, hi) → lo ≤ i ∧ i ≤ hi
  | .dt k => k.dt.Valid ∧ (k.res = .year ∨ k.res = .yearMonth → 1000 ≤ k.dt.day.y) ∧
      ∀ d t o, k.dt = .dt d t → t.off = some o → -840 ≤ o ∧ o ≤ 840
  | _ => True

/-- The child or XML attribute `n` of an element of type `T` is declared with type `t`. -/
def Declares (T : QN) (n : Str) (t : QN) : Prop :=
  (∃ p ∈ partsOf 8 T, ∃ ns, (.q ns n, some t) ∈ p.elems) ∨ ∃ a ∈ typeAttrs 8 T, a.name = n ∧ a.type = some t

/-- All values that are written for an object are values of the types that the schemas
declare for them. -/
structure Valued (o : Opts) (c : Cls) (_ns : Str) (_nss : NsMap) (as : List (Str × Val Cls F)) : Prop where
  scalars : ∀ T, (elemType c = some T ∨ c = .Icon ∧ T = basicLink) → ∀ it ∈ fastkml.itemsOf c, ∀ t, Declares T it.node t →
    Fine t (shown o.verbosity it.dflt.val (attr it.attr as))
  whens : ∀ r ∈ rows as, ∀ k, r.when_ = some k → Fine (F := F) (.q .kml (s% "dateTimeType")) (.dt k)

/-- All objects in `v` have values of the declared types. -/
def AllValued (o : Opts) (v : Val Cls F) : Prop := Everywhere (Valued o) v

end Verif.Spec
