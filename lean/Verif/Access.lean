import Verif.Classes

/-!
# Properties and constructor arguments that are not attributes
-/

namespace Verif

variable {F : Type} [PyExt F]

/-- `IconStyle(ns=, name_spaces=, icon_href=, **kw)` (fastkml/styles.py:429-488). -/
def initIconStyle (ns : Option Str) (nss : NsMap) (iconHref : Option Str) (kw : List (Str × Val Cls F)) :
    Except Err (Val Cls F) :=
  match cleanString iconHref with
  | none => init fastkml .IconStyle ns nss kw
  | some h => match truthy fastkml (kwGet (s% "icon") kw) with
    | .error e => .error e
    | .ok true => init fastkml .IconStyle ns nss kw
    | .ok false => match init fastkml .Icon ns nss [(s% "href", .str h)] with
      | .error e => .error e
      | .ok i => init fastkml .IconStyle ns nss (dset (s% "icon") i kw)

/-- `getattr(v, a)` of an object. -/
def field (a : Str) : Val Cls F → Val Cls F
  | .obj _ _ _ attrs => (dget a attrs).getD .none
  | _ => .none

/-- `IconStyle.icon_href` (fastkml/styles.py:520-523). -/
def iconHref (v : Val Cls F) : Except Err (Val Cls F) :=
  match truthy fastkml (field (s% "icon") v) with
  | .error e => .error e
  | .ok true => .ok (field (s% "href") (field (s% "icon") v))
  | .ok false => .ok .none

/-- `isinstance(v, cls)` for a class without subclasses. -/
def isExactly (c : Cls) : Val Cls F → Bool
  | .obj d _ _ _ => decide (d = c)
  | _ => false

/-- `TimeMixin.time_stamp` (fastkml/mixins.py:34-37). -/
def timeStamp (v : Val Cls F) : Val Cls F :=
  if isExactly .TimeStamp (field (s% "times") v) then field (s% "timestamp") (field (s% "times") v) else .none

/-- `TimeMixin.begin` (fastkml/mixins.py:39-42). -/
def timeBegin (v : Val Cls F) : Val Cls F :=
  if isExactly .TimeSpan (field (s% "times") v) then field (s% "begin") (field (s% "times") v) else .none

/-- `TimeMixin.end` (fastkml/mixins.py:44-47). -/
def timeEnd (v : Val Cls F) : Val Cls F :=
  if isExactly .TimeSpan (field (s% "times") v) then field (s% "end") (field (s% "times") v) else .none

end Verif
