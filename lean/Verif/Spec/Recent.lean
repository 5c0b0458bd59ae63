import Verif.Cache

/-!
# Which schemas are remembered

The specification of C81: of the keys for which `get_schema_parser` returned a schema since the
cache was cleared, the 16 that were used last.
-/

namespace Verif.Spec

/-- The keys for which `get_schema_parser` returned a schema since the cache was cleared, the
latest first. -/
def used (s : Session) : List Event → List SchemaKey
  | [] => []
  | x :: h => match x with
    | .clear => []
    | x => match asks (after s h) x with
      | some k => match (fetch (after s h) k).2 with
        | .schema _ => k :: used s h
        | _ => used s h
      | none => used s h

/-- Without repetitions, where the first of equal ones is kept. -/
def distinct : List SchemaKey → List SchemaKey
  | [] => []
  | k :: l => k :: (distinct l).filter fun j => decide (j ≠ k)

/-- The keys that are remembered. -/
def recent (s : Session) (h : List Event) : List SchemaKey := (distinct (used s h)).take 16

end Verif.Spec
