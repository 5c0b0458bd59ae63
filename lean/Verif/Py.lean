/-!
# Python primitives

The string, integer and dictionary primitives of Python that fastkml calls.
Strings are lists of code points.  Nothing in this file is fastkml code; each
definition cites the call sites in /repo that need it.
-/

namespace Verif

/-- A Python `str`. -/
abbrev Str := List Char

/-- `s% "abc"` is the explicit list of the code points of the literal (so that
the kernel can compute with it). -/
macro "s%" s:str : term => do
  let cs := s.getString.toList.map (fun c => Lean.Syntax.mkCharLit c)
  `(([$(cs.toArray),*] : Str))

/-- The code points `c` with `c.isspace()` in Python; `str.strip()` and
`str.split()` without arguments use exactly this set.
Used by: fastkml/helpers.py:100, 673, 710, 795, 844, 925, 1030, 1116, 1172;
fastkml/geometry.py:210. -/
def isSpace (c : Char) : Bool :=
  let n := c.toNat
  (9 ≤ n && n ≤ 13) || (28 ≤ n && n ≤ 32) || n == 0x85 || n == 0xA0 || n == 0x1680 ||
  (0x2000 ≤ n && n ≤ 0x200A) || n == 0x2028 || n == 0x2029 || n == 0x202F ||
  n == 0x205F || n == 0x3000

/-- `s.lstrip()`. -/
def lstrip (s : Str) : Str := s.dropWhile isSpace

/-- `s.strip()` (fastkml/helpers.py:100 and others). -/
def strip (s : Str) : Str := (lstrip (lstrip s).reverse).reverse

/-- `s.split()`: the maximal runs of non-whitespace
(fastkml/helpers.py:1172, fastkml/geometry.py:210).
`splitWsAux cur s` has already collected the characters `cur` (reversed) of the
current run. -/
def splitWsAux (cur : Str) : Str → List Str
  | [] => if cur.isEmpty then [] else [cur.reverse]
  | c :: cs =>
    if isSpace c then
      if cur.isEmpty then splitWsAux [] cs else cur.reverse :: splitWsAux [] cs
    else splitWsAux (c :: cur) cs

/-- `s.split()`. -/
def splitWs (s : Str) : List Str := splitWsAux [] s

/-- `s.split(sep)` for a one-character separator (fastkml/geometry.py:216). -/
def splitOn (sep : Char) : Str → List Str
  | [] => [[]]
  | c :: cs =>
    if c = sep then [] :: splitOn sep cs
    else match splitOn sep cs with
      | [] => [[c]]
      | p :: ps => (c :: p) :: ps

/-- `sep.join(parts)` (fastkml/helpers.py:564, fastkml/geometry.py:171-174). -/
def join (sep : Str) : List Str → Str
  | [] => []
  | [p] => p
  | p :: q :: ps => p ++ sep ++ join sep (q :: ps)

/-- `c.lower()` for one code point.  Simplification: only ASCII letters and
KELVIN SIGN (the only non-ASCII code point whose lower case is ASCII) are
changed.  This is exact for the use in fastkml/enums.py:75-78 and
fastkml/helpers.py:747, where the lowered text is only compared with ASCII
words or converted to a number. -/
def lowerChar (c : Char) : Char :=
  if 'A' ≤ c ∧ c ≤ 'Z' then Char.ofNat (c.toNat + 32)
  else if c.toNat = 0x212A then 'k' else c

/-- `s.lower()`. -/
def lower (s : Str) : Str := s.map lowerChar

/-- `re.sub(r", +", ",", s)` (fastkml/geometry.py:210): remove the blanks
(U+0020 only) that directly follow a comma.  `squeeze afterComma s`. -/
def squeeze : Bool → Str → Str
  | _, [] => []
  | b, c :: cs =>
    if b && c == ' ' then squeeze true cs
    else c :: squeeze (c == ',') cs

/-- `s.startswith(p)`. -/
def startsWith (p s : Str) : Bool := p.isPrefixOf s

/-- `s.endswith(p)` (fastkml/kml.py:239). -/
def endsWith (p s : Str) : Bool := p.reverse.isPrefixOf s.reverse

/-! ## Integers -/

/-- The decimal digit `n < 10`. -/
def digitChar : Nat → Char
  | 0 => '0' | 1 => '1' | 2 => '2' | 3 => '3' | 4 => '4'
  | 5 => '5' | 6 => '6' | 7 => '7' | 8 => '8' | _ => '9'

/-- The value of an ASCII decimal digit. -/
def digitVal (c : Char) : Option Nat :=
  if '0' ≤ c ∧ c ≤ '9' then some (c.toNat - 48) else none

/-- Decimal digits of `n`, by structural recursion on a fuel argument. -/
def natReprAux : Nat → Nat → Str
  | 0, _ => []
  | f + 1, n => if n < 10 then [digitChar n] else natReprAux f (n / 10) ++ [digitChar (n % 10)]

/-- `str(n)` for a natural number (fastkml/helpers.py:343, 380, 413). -/
def natRepr (n : Nat) : Str := natReprAux (n + 1) n

/-- `str(i)` for an `int`. -/
def intRepr (i : Int) : Str :=
  if i < 0 then '-' :: natRepr i.natAbs else natRepr i.natAbs

/-- Digits with single underscores between them, as in the numbers of `ExtInst.lean`. -/
def digitsVal (acc : Nat) (prev : Bool) : Str → Option Nat
  | [] => if prev then some acc else none
  | c :: cs =>
    if c = '_' then (if prev then digitsVal acc false cs else none)
    else match digitVal c with
      | some d => digitsVal (acc * 10 + d) true cs
      | none => none

/-- The digits zero of Unicode 15 (general category Nd, as in Python 3.12); the digits of a
script follow its zero. -/
def decimalZeros : List Nat :=
  [0x30, 0x660, 0x6F0, 0x7C0, 0x966, 0x9E6, 0xA66, 0xAE6, 0xB66,
   0xBE6, 0xC66, 0xCE6, 0xD66, 0xDE6, 0xE50, 0xED0, 0xF20, 0x1040,
   0x1090, 0x17E0, 0x1810, 0x1946, 0x19D0, 0x1A80, 0x1A90, 0x1B50, 0x1BB0,
   0x1C40, 0x1C50, 0xA620, 0xA8D0, 0xA900, 0xA9D0, 0xA9F0, 0xAA50, 0xABF0,
   0xFF10, 0x104A0, 0x10D30, 0x11066, 0x110F0, 0x11136, 0x111D0, 0x112F0, 0x11450,
   0x114D0, 0x11650, 0x116C0, 0x11730, 0x118E0, 0x11950, 0x11C50, 0x11D50, 0x11DA0,
   0x11F50, 0x16A60, 0x16AC0, 0x16B50, 0x1D7CE, 0x1D7D8, 0x1D7E2, 0x1D7EC, 0x1D7F6,
   0x1E140, 0x1E2F0, 0x1E4F0, 0x1E950, 0x1FBF0]

/-- `unicodedata.decimal(c, None)`: the characters that `int()` takes for digits
(fastkml/helpers.py:846, 887, fastkml/times.py:203-205), and that `\d` matches
(fastkml/times.py:53-55). -/
def decimalVal (c : Char) : Option Nat :=
  (decimalZeros.find? fun z => decide (z ≤ c.toNat) && decide (c.toNat < z + 10)).map fun z => c.toNat - z

/-- Digits with single underscores between them, as accepted by `int()`. -/
def decimalsVal (acc : Nat) (prev : Bool) : Str → Option Nat
  | [] => if prev then some acc else none
  | c :: cs =>
    if c = '_' then (if prev then decimalsVal acc false cs else none)
    else match decimalVal c with
      | some d => decimalsVal (acc * 10 + d) true cs
      | none => none

/-- The white space that `int()` allows around a number: that of `str.strip()` without the
control characters U+001C to U+001F. -/
def isIntSpace (c : Char) : Bool := isSpace c && !(decide (28 ≤ c.toNat) && decide (c.toNat ≤ 31))

/-- A text without the white space at its ends. -/
def intStrip (s : Str) : Str := ((s.dropWhile isIntSpace).reverse.dropWhile isIntSpace).reverse

/-- `int(s)` for a string: surrounding whitespace, an optional sign, digits with
single underscores; `none` is `ValueError` (fastkml/helpers.py:846, 887). -/
def intParse (s : Str) : Option Int :=
  match intStrip s with
  | '-' :: ds => (decimalsVal 0 false ds).map fun n : Nat => -(Int.ofNat n)
  | '+' :: ds => (decimalsVal 0 false ds).map fun n : Nat => Int.ofNat n
  | ds => (decimalsVal 0 false ds).map fun n : Nat => Int.ofNat n

/-! ## Dictionaries

A `dict` is an association list in insertion order with distinct keys. -/

variable {α : Type} {β : Type} [DecidableEq α]

/-- `d.get(k)`. -/
def dget (k : α) : List (α × β) → Option β
  | [] => none
  | (k', v) :: d => if k' = k then some v else dget k d

/-- `d[k] = v`. -/
def dset (k : α) (v : β) : List (α × β) → List (α × β)
  | [] => [(k, v)]
  | (k', v') :: d => if k' = k then (k', v) :: d else (k', v') :: dset k v d

/-- `d.update(e)`, `{**d, **e}` (fastkml/base.py:82, 353, 367). -/
def dupdate (d e : List (α × β)) : List (α × β) :=
  e.foldl (fun acc p => dset p.1 p.2 acc) d

end Verif
