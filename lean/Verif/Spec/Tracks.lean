import Verif.Spec.Reading
import Verif.Spec.Writing

/-!
# Specification: tracks

What the rows of a track are, in terms of the lists of times, positions and
angles, and what these lists are in an XML element.
-/

namespace Verif.Spec

variable {F : Type} [PyExt F]

/-- `0.0` -/
def zero : F := PyExt.ofDec 0 1

/-- Heading, tilt and roll; missing ones are `0.0`. -/
def anglesFrom (a : List F) : F × F × F := (a[0]?.getD zero, a[1]?.getD zero, a[2]?.getD zero)

/-- The rows of a track with the given times, positions and angles: row `k` has the
`k`-th time (if there is one), the `k`-th position, and the `k`-th angle (or
`(0.0, 0.0, 0.0)`). -/
def Rows (ws : List (Option KmlDateTime)) (cs as : List (Pt F)) (rs : List (TrackItem F)) : Prop :=
  rs.length = cs.length ∧
  ∀ (k : Nat) (c : Pt F), cs[k]? = some c → rs[k]? = some (TrackItem.mk ws[k]?.join c (some (anglesFrom (as[k]?.getD []))))

/-- The time in the text of an element. -/
def timeIn (F : Type) [PyExt F] (k : Xml) : Option KmlDateTime :=
  k.text.bind (KmlDateTime.parse (PyExt.arrowGet F))

/-- The numbers in the text of an element. -/
def numbersIn (k : Xml) : Option (Pt F) :=
  match k.text with
  | none => none
  | some t => if t = [] then none else floatsOf (splitWs t)

/-- What `f` gives for the children with the local name `node`, in the first of the
namespaces in which it gives anything. -/
def gathered {α : Type} (f : Xml → Option α) (N : NsMap) (e : Xml) (node : Str) : List Str → List α
  | [] => []
  | id :: ids => match (e.findall (nsGet N id ++ node)).filterMap f with
    | [] => gathered f N e node ids
    | l => l

/-- The times of a track element that can be read. -/
def timesOf (F : Type) [PyExt F] (N : NsMap) (e : Xml) : List KmlDateTime :=
  gathered (timeIn F) N e (s% "when") [s% "kml", s% "gx", []]

/-- The positions of a track element that can be read. -/
def positionsOf (N : NsMap) (e : Xml) : List (Pt F) :=
  gathered numbersIn N e (s% "coord") [s% "gx", []]

/-- The angles of a track element that can be read. -/
def anglesOf (N : NsMap) (e : Xml) : List (Pt F) :=
  gathered numbersIn N e (s% "angles") [s% "gx", []]

end Verif.Spec
