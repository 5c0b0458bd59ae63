import Verif.Find

/-!
# `urllib.parse.urlparse` and the errors of `get_style_by_url`

`Document.get_style_by_url` (fastkml/containers.py:303-326) takes the fragment of
`urlparse(style_url)`.  This file models `urlsplit` of CPython's `Lib/urllib/parse.py`
step by step, with the `ValueError` for a malformed network location, which
`Find.lean` leaves out.  Two things are parameters: the check of an IP address in brackets
(`_check_bracketed_host`, new in Python 3.11.4) and Unicode's normal form NFKC.
-/

namespace Verif

/-- The parts of the standard library that `urlsplit` calls. -/
structure UrlLib where
  /-- `_check_bracketed_host(host)` does not raise. -/
  hostOk : Str → Bool
  /-- `unicodedata.normalize('NFKC', text)`. -/
  nfkc : Str → Str

/-- `_WHATWG_C0_CONTROL_OR_SPACE`. -/
def c0OrSpace (c : Char) : Bool := decide (c.toNat ≤ 32)

/-- `_UNSAFE_URL_BYTES_TO_REMOVE` are removed. -/
def urlSafe (s : Str) : Str := s.filter fun c => decide (c ∉ ['\t', '\r', '\n'])

def asciiAlpha (c : Char) : Bool := decide (65 ≤ c.toNat ∧ c.toNat ≤ 90 ∨ 97 ≤ c.toNat ∧ c.toNat ≤ 122)

/-- `scheme_chars`: letters, digits and `+-.`. -/
def schemeChar (c : Char) : Bool :=
  asciiAlpha c || decide (48 ≤ c.toNat ∧ c.toNat ≤ 57) || decide (c ∈ ['+', '-', '.'])

/-- The url without its scheme: what follows the first colon if all before it, starting
with a letter, can be a scheme. -/
def dropScheme (url : Str) : Str :=
  let scheme := url.takeWhile fun c => decide (c ≠ ':')
  if decide (':' ∈ url) && (scheme.head?.map asciiAlpha == some true) && scheme.all schemeChar then url.drop (scheme.length + 1) else url

/-- `_splitnetloc(url, 2)`: the network location and the rest, which begins with one of `/?#`. -/
def splitNetloc (url : Str) : Str × Str :=
  ((url.drop 2).takeWhile fun c => decide (c ∉ ['/', '?', '#']), (url.drop 2).dropWhile fun c => decide (c ∉ ['/', '?', '#']))

/-- The checks of brackets in `urlsplit`. -/
def bracketsOk (U : UrlLib) (netloc : Str) : Bool :=
  if '[' ∈ netloc ∧ ']' ∉ netloc ∨ ']' ∈ netloc ∧ '[' ∉ netloc then false
  else if '[' ∈ netloc then
    U.hostOk (((netloc.dropWhile fun c => decide (c ≠ '[')).drop 1).takeWhile fun c => decide (c ≠ ']'))
  else true

/-- `_checknetloc(netloc)` does not raise. -/
def netlocOk (U : UrlLib) (netloc : Str) : Bool :=
  if netloc = [] ∨ netloc.all (fun c => decide (c.toNat < 128)) = true then true
  else
    let n := netloc.filter fun c => decide (c ∉ ['@', ':', '#', '?'])
    if n = U.nfkc n then true else (U.nfkc n).all fun c => decide (c ∉ ['/', '?', '#', '@', ':'])

/-- `urlsplit(url)`, of which the network location and the fragment are kept;
`urlparse` passes them on. -/
def urlsplit (U : UrlLib) (url : Str) : Except Err (Str × Str) :=
  let url := dropScheme (urlSafe (url.dropWhile c0OrSpace))
  let p := if url.take 2 = ['/', '/'] then splitNetloc url else ([], url)
  if bracketsOk U p.1 then
    let fragment := if '#' ∈ p.2 then (p.2.dropWhile fun c => decide (c ≠ '#')).drop 1 else []
    if netlocOk U p.1 then .ok (p.1, fragment) else .error .valueError
  else .error .valueError

variable {F : Type}

/-- `Document.get_style_by_url` (fastkml/containers.py:303-326) with the errors of `urlparse`. -/
def styleByUrl (U : UrlLib) (P : Look F) (doc : Val Cls F) (url : Str) : Except Err (Option (Node F)) :=
  match urlsplit U url with
  | .error e => .error e
  | .ok (_, id) => .ok (findAll P ⟨some [.Style, .StyleMap], [(s% "id", .str id)]⟩ (.val doc)).head?

end Verif
