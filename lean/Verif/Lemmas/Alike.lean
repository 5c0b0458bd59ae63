import Verif.Lemmas.Val

/-!
# Attributes with the same truth values and geometries
-/

set_option linter.unusedSectionVars false
set_option linter.unusedSimpArgs false

namespace Verif

variable {C F : Type} [DecidableEq C] [PyExt F]

/-- Two views that no geometry and no truth value can tell apart. -/
structure AlikeView (x y : View C F) : Prop where
  info : x.info = y.info
  elems : x.elems = y.elems
  notNone : x.v.notNone = y.v.notNone
  coords : coordsOf x.v = coordsOf y.v
  num : numOf x.v = numOf y.v
  items : ∀ l, x.v = .items l ↔ y.v = .items l

theorem geomStep_alike {k : GeomKind} {A B : List (Str × View C F)}
    (h : ∀ a, AlikeView (viewOf a A) (viewOf a B)) : geomStep k A = geomStep k B := by
  cases k <;> simp only [geomStep, (h _).info, (h _).elems, (h _).notNone, (h _).coords, (h _).num]
  have hi := (h (s% "track_items")).items
  cases hv : (viewOf (s% "track_items") A).v <;> cases hw : (viewOf (s% "track_items") B).v <;>
    first
    | rfl
    | (rw [hv, hw] at hi; have := (hi _).mp rfl; simp only [Val.items.injEq] at this; rw [this])
    | (rw [hv, hw] at hi; exact absurd ((hi _).mp rfl) (by simp))
    | (rw [hv, hw] at hi; exact absurd ((hi _).mpr rfl) (by simp))

theorem boolStep_alike {r : BoolRule} {A B : List (Str × View C F)} {g : Except Err (Option (Geo F))}
    (h : ∀ a, AlikeView (viewOf a A) (viewOf a B)) : boolStep r A g = boolStep r B g := by
  cases r <;> simp only [boolStep, (h _).info, (h _).elems, (h _).notNone]

end Verif
