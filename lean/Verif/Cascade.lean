import Verif.Spec.Extend
import Verif.Classes

/-!
# The example of a new class (examples/transform_cascading_style.py)

The script defines a class, registers its attribute, and registers the class with
`Document`.  The classes are those of fastkml (`some`) and the new one (`none`).
-/

namespace Verif

/-- A type of the library in the extended library. -/
def PyType.old : PyType C → PyType (Option C)
  | .str => .str
  | .int => .int
  | .float => .float
  | .bool => .bool
  | .tuple => .tuple
  | .lineType => .lineType
  | .kmlDateTime => .kmlDateTime
  | .enum e => .enum e
  | .cls c => .cls (some c)

/-- An item of the library in the extended library. -/
def Item.old (i : Item C) : Item (Option C) := { i with classes := i.classes.map PyType.old }

/-- A class of the library in the extended library. -/
def ClsInfo.old (i : ClsInfo C) : ClsInfo (Option C) := { i with mro := i.mro.map some }

/-- `class CascadingStyle(_BaseObject)` (examples/transform_cascading_style.py:24-46); tag
fastkml/base.py:266-276; no `__bool__`. -/
def info_CascadingStyle : ClsInfo (Option Cls) where
  mro := [none, some ._BaseObject, some ._XMLObject]
  tag := (s% "CascadingStyle")
  nsid := (s% "gx")
  slots := [((s% "id"), .orEmpty), ((s% "target_id"), .orEmpty), ((s% "style"), .raw)]
  kwargs := true
  bool := .always
  geom := .none
  special := .none

/-- The registration of its attribute (examples/transform_cascading_style.py:48-58). -/
def cascadeStyleItem : Item (Option Cls) :=
  ⟨[s% "kml"], [.cls (some .Style)], s% "style", .xmlSub, .xmlSub, s% "Style", .none⟩

/-- fastkml with the new class. -/
def cascadeBase : Lib (Option Cls) :=
  Lib.register ⟨fun | some c => (clsInfo c).old | none => info_CascadingStyle,
    kmlRegistry.map fun p => (some p.1, p.2.map Item.old)⟩ none cascadeStyleItem

/-- The registration with `Document` (examples/transform_cascading_style.py:61-71). -/
def cascadeItem : Item (Option Cls) :=
  ⟨[s% "gx"], [.cls none], s% "gx_cascading_style", .xmlSubList, .xmlSubList, s% "CascadingStyle", .none⟩

/-- The library after both registrations. -/
def cascadeLib : Lib (Option Cls) := cascadeBase.register (some .Document) cascadeItem

end Verif
