import Verif.Base

/-!
# Writing with lxml

`etree_element` builds the element with `config.etree`, which is `lxml.etree` if it is
installed (fastkml/config.py:36-43).  lxml looks at every text when it is set.
-/

namespace Verif

/-- The characters that lxml accepts in names, texts and values of attributes
(`_utf8` in lxml's apihelpers.pxi: "All strings must be XML compatible: Unicode or ASCII, no
NULL bytes or control characters"); lxml is not in `/repo`.  Lean's characters are not
surrogates, which lxml refuses, too. -/
def lxmlChar (c : Char) : Bool :=
  decide (c = '\t' ∨ c = '\n' ∨ c = '\r') || (decide (0x20 ≤ c.toNat) && decide (c.toNat ≠ 0xFFFE) && decide (c.toNat ≠ 0xFFFF))

mutual
/-- The names, texts and values in an element are accepted. -/
def lxmlAccepts : Xml → Bool
  | .mk tag as tx ks => tag.all lxmlChar && (as.all fun p => p.1.all lxmlChar && p.2.all lxmlChar) &&
      (match tx with
        | none => true
        | some s => s.all lxmlChar) && lxmlAcceptsAll ks
termination_by structural e => e
/-- The same for a list of elements. -/
def lxmlAcceptsAll : List Xml → Bool
  | [] => true
  | k :: r => lxmlAccepts k && lxmlAcceptsAll r
termination_by structural l => l
end

variable {C F : Type} [DecidableEq C] [PyExt F]

/-- `etree_element(precision=, verbosity=)` with lxml: `config.etree.Element`,
`SubElement`, `element.text = ...` and `element.set` raise `ValueError` if a string is not
accepted (fastkml/base.py:170, fastkml/kml.py:175-190, fastkml/geometry.py:174, fastkml/helpers.py:228, 265-269, 306,
339-343, 376-380, 413, 429-433, 449, 466-470, 486, 507-511, 533-537, 559-566).
Simplification: the strings are looked at when the element is complete; every string that is
set is in the element, so this differs only in which exception is raised if there would be
several. -/
def serLxml (L : Lib C) (o : Opts) (v : Val C F) : Except Err Xml :=
  match ser L o v with
  | .error x => .error x
  | .ok e => if lxmlAccepts e then .ok e else .error .valueError

end Verif
