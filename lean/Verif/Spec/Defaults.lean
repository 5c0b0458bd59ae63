import Verif.Spec.Valid

/-!
# Defaults of the schemas: specification
-/

namespace Verif.Spec

variable {F : Type} [PyExt F]

/-- The value of a digit. -/
def digitVal (c : Char) : Option Nat := if '0' ≤ c ∧ c ≤ '9' then some (c.toNat - '0'.toNat) else none

/-- The digits of a text, as a number after `acc`. -/
def digitsVal (acc : Nat) : Str → Option Nat
  | [] => some acc
  | c :: s => match digitVal c with
    | some d => digitsVal (acc * 10 + d) s
    | none => none

/-- Leave out zeros at the end. -/
def noZeros (s : Str) : Str := (s.reverse.dropWhile fun c => decide (c = '0')).reverse

/-- A decimal number as written in the schemas: `n / 10^d`, with the least `d`. -/
def decimalOf (s : Str) : Option (Int × Nat) :=
  let neg := decide (s.head? = some '-')
  let t := if neg then s.drop 1 else s
  let whole := t.takeWhile fun c => decide (c ≠ '.')
  let frac := noZeros ((t.dropWhile fun c => decide (c ≠ '.')).drop 1)
  if whole = [] then none else
  match digitsVal 0 (whole ++ frac) with
  | some n => some (if neg then -(n : Int) else n, frac.length)
  | none => none

/-- The text of the schema denotes the value. -/
def Denotes (s : Str) : Val Cls F → Prop
  | .str t => s = t
  | .enum _ x => s = x
  | .bool b => s = if b then s% "1" else s% "0"
  | v => ∃ n d, decimalOf s = some (n, d) ∧ (scalarEq v (.float (PyExt.ofDec n d)) = true ∨ (d = 0 ∧ scalarEq v (.int n) = true))

/-- The default that the schemas declare for the child or the attribute `node` of an
element of type `t`; children may be in any of the namespaces of the schemas. -/
def schemaDefaults (t : QN) (g : GetFn) (node : Str) : List Str :=
  match place g with
  | .attr => ((typeAttrs 8 t).filter fun a => sameStr a.name node).filterMap (·.dflt)
  | _ => ([XNs.kml, .gx, .atom].filter fun n => (partsOf 8 t).any fun p => p.elems.any fun x => x.1.same (.q n node)).filterMap
      fun n => (elemDecl (.q n node)).bind (·.dflt)

/-- The attributes whose default in fastkml is not that of the schema. -/
def otherDefaults : List (Cls × Str) := [
  -- 256 instead of 0
  (.Lod, s% "min_lod_pixels"),
  -- 0.5 instead of 1
  (.HotSpot, s% "x"), (.HotSpot, s% "y"),
  -- a template, none in the schema
  (.Link, s% "view_format"), (.Icon, s% "view_format")]

/-- The types that the schemas declare for the child or the attribute `node` of an element
of type `t`. -/
def schemaTypes (t : QN) (g : GetFn) (node : Str) : List QN :=
  match place g with
  | .attr => ((typeAttrs 8 t).filter fun a => sameStr a.name node).filterMap (·.type)
  | _ => (partsOf 8 t).flatMap fun p => (p.elems.filter fun x => match x.1 with
    | .q _ n => sameStr n node).filterMap (·.2)

/-- The values that the schemas list for the child or the attribute `node` of an element
of type `t`. -/
def schemaValues (t : QN) (g : GetFn) (node : Str) : List Str :=
  (schemaTypes t g node).flatMap fun ty => match enumDecl ty with
    | some e => e.values
    | none => []

end Verif.Spec
