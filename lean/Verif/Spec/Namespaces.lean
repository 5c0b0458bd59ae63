import Verif.Files
import Verif.Spec.Cycle

/-!
# Namespaces: specification
-/

namespace Verif.Spec

/-- The namespaces that fastkml knows by prefix. -/
def standard (p : Str) : Option Str :=
  if p = (s% "kml") then some (s% "{http://www.opengis.net/kml/2.2}")
  else if p = (s% "atom") then some (s% "{http://www.w3.org/2005/Atom}")
  else if p = (s% "gx") then some (s% "{http://www.google.com/kml/ext/2.2}")
  else none

/-- `m` is the standard mapping with the entries of `user` taking precedence. -/
def Overrides (user m : NsMap) : Prop := ∀ p, dget p m = (dget p user).or (standard p)

/-- The prefix of the namespace that a class belongs to. -/
def home : Cls → Str
  | .Track | .MultiTrack => s% "gx"
  | .atom_Link | .Author | .Contributor | ._Person | ._AtomObject => s% "atom"
  | ._XMLObject => []
  | _ => s% "kml"

/-- The namespace of an object: the given one, even if empty; otherwise the one that its
class has in the user's or else the standard mapping; otherwise none. -/
def ownNs (c : Cls) (ns : Option Str) (user : NsMap) : Str :=
  match ns with
  | some n => n
  | none => ((dget (home c) user).or (standard (home c))).getD []

/-- The namespace in which `KML.parse` expects the document: the given one; otherwise
what precedes `kml` in the tag of the root; otherwise none. -/
def RootNs (ns : Option Str) (tag n : Str) : Prop :=
  ns = some n ∨ (ns = none ∧ tag = n ++ (s% "kml")) ∨ (ns = none ∧ (∀ m, tag ≠ m ++ (s% "kml")) ∧ n = [])

end Verif.Spec
