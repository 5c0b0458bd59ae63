import Verif.Py

/-!
# fastkml/enums.py
-/

namespace Verif

/-- The enum classes that occur in registrations (fastkml/enums.py:114-289). -/
inductive EnumId where
  | altitudeMode | dataType | refreshMode | viewRefreshMode | colorMode | displayMode
  | shape | gridOrigin | units | pairKey
deriving DecidableEq, Repr

/-- The member values in definition order (fastkml/enums.py:155-159, 175-182,
193-195, 206-209, 220-221, 236-237, 252-254, 267-268, 279-281, 288-289). -/
def EnumId.values : EnumId → List Str
  | .altitudeMode => [s% "clampToGround", s% "relativeToGround", s% "absolute",
      s% "clampToSeaFloor", s% "relativeToSeaFloor"]
  | .dataType => [s% "string", s% "int", s% "uint", s% "short", s% "ushort", s% "float",
      s% "double", s% "bool"]
  | .refreshMode => [s% "onChange", s% "onInterval", s% "onExpire"]
  | .viewRefreshMode => [s% "never", s% "onStop", s% "onRequest", s% "onRegion"]
  | .colorMode => [s% "normal", s% "random"]
  | .displayMode => [s% "default", s% "hide"]
  | .shape => [s% "rectangle", s% "cylinder", s% "sphere"]
  | .gridOrigin => [s% "lowerLeft", s% "upperLeft"]
  | .units => [s% "fraction", s% "pixels", s% "insetPixels"]
  | .pairKey => [s% "normal", s% "highlight"]

/-- `enum_class(text)`: exact value first, then `RelaxedEnum._missing_`
(fastkml/enums.py:73-91): the first member whose lowered value equals the lowered
text; `none` is `ValueError`.  A member is represented by its value (values are
unique, `@unique`). -/
def enumCall (e : EnumId) (text : Str) : Option Str :=
  if text ∈ e.values then some text
  else e.values.find? fun v => decide (lower v = lower text)

/-- `_get_enum_value` (fastkml/helpers.py:985-990). -/
def getEnumValue (e : EnumId) (text : Str) (strict : Bool) : Option Str :=
  match enumCall e text with
  | none => none
  | some v => if strict && decide (v ≠ text) then none else some v

/-- `value.get_ns_id()`: only `AltitudeMode` has it (fastkml/enums.py:161-168);
`none` is `AttributeError`. -/
def enumNsId (e : EnumId) (v : Str) : Option Str :=
  match e with
  | .altitudeMode =>
    if v = s% "clampToSeaFloor" ∨ v = s% "relativeToSeaFloor" then some (s% "gx")
    else some (s% "kml")
  | _ => none

/-- `Verbosity` (fastkml/enums.py:95-100). -/
inductive Verbosity where | terse | normal | verbose
deriving DecidableEq, Repr

/-- `DateTimeResolution` (fastkml/enums.py:104-110). -/
inductive Resolution where | datetime | date | yearMonth | year
deriving DecidableEq, Repr

end Verif
