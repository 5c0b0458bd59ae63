import Verif.Url

/-!
# Hosts in urls: specification
-/

namespace Verif.Spec

/-- A letter of ASCII. -/
def Letter (c : Char) : Prop := (65 ≤ c.toNat ∧ c.toNat ≤ 90) ∨ (97 ≤ c.toNat ∧ c.toNat ≤ 122)

/-- A scheme (RFC 3986): a letter, then letters, digits, `+`, `-` and `.`. -/
def Scheme (s : Str) : Prop :=
  ∃ c r, s = c :: r ∧ Letter c ∧ ∀ x ∈ r, Letter x ∨ (48 ≤ x.toNat ∧ x.toNat ≤ 57) ∨ x = '+' ∨ x = '-' ∨ x = '.'

/-- A host (with user and port) for which `urlsplit` raises `ValueError`: it has one kind of
brackets only, or a refused address in the first brackets, or characters outside of ASCII
whose normal form NFKC has a delimiter. -/
inductive BadHost (U : UrlLib) (n : Str) : Prop where
  | opened : '[' ∈ n → ']' ∉ n → BadHost U n
  | closed : ']' ∈ n → '[' ∉ n → BadHost U n
  | address {a h b : Str} : n = a ++ '[' :: h ++ b → '[' ∉ a → ']' ∉ h → (b = [] ∨ b.head? = some ']') →
      U.hostOk h = false → BadHost U n
  | normal {c d : Char} : c ∈ n → 128 ≤ c.toNat →
      U.nfkc (n.filter fun x => decide (x ∉ ['@', ':', '#', '?'])) ≠ n.filter (fun x => decide (x ∉ ['@', ':', '#', '?'])) →
      d ∈ U.nfkc (n.filter fun x => decide (x ∉ ['@', ':', '#', '?'])) → d ∈ ['/', '?', '#', '@', ':'] → BadHost U n

/-- `host` is what stands between `//` and the next of `/?#` (or the end) in `url`, when the
`//` follows the scheme and its colon or begins the url.  Control characters and spaces
before the url do not count, and tabs and ends of lines anywhere in it do not. -/
def HostOf (url host : Str) : Prop :=
  ∃ blank u scheme rest, url = blank ++ u ∧ (∀ c ∈ blank, c.toNat ≤ 32) ∧ (∀ c, u.head? = some c → 32 < c.toNat) ∧
    u.filter (fun c => decide (c ≠ '\t' ∧ c ≠ '\r' ∧ c ≠ '\n')) = scheme ++ s% "//" ++ host ++ rest ∧
    (scheme = [] ∨ ∃ s, Scheme s ∧ scheme = s ++ [':']) ∧
    (∀ c ∈ host, c ≠ '/' ∧ c ≠ '?' ∧ c ≠ '#') ∧
    (∀ c, rest.head? = some c → c = '/' ∨ c = '?' ∨ c = '#')

end Verif.Spec
