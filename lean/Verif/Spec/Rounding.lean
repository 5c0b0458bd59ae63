import Verif.Spec.Cycle

/-!
# Objects with rounded coordinates
-/

namespace Verif.Spec

variable {C F : Type}

/-- A row of a track with all its numbers changed with `r`. -/
def changeRow (r : F → F) (i : TrackItem F) : TrackItem F :=
  ⟨i.when_, i.coord.map r, i.angle.map fun a => (r a.1, r a.2.1, r a.2.2)⟩

mutual
/-- Change the numbers in coordinates and in the rows of tracks with `r`, in an
object and in all objects in it.  Other numbers stay. -/
def mapCoords (r : F → F) : Val C F → Val C F
  | .obj c ns nss attrs => .obj c ns nss (mapCoordsAttrs r attrs)
  | .list l => .list (mapCoordsList r l)
  | .coords l => .coords (l.map fun c => c.map r)
  | .items l => .items (l.map (changeRow r))
  | .none => .none
  | .str s => .str s
  | .bool b => .bool b
  | .int i => .int i
  | .float f => .float f
  | .enum e x => .enum e x
  | .dt k => .dt k
  | .floats l => .floats l
  | .whens l => .whens l
termination_by structural v => v
/-- The attributes. -/
def mapCoordsAttrs (r : F → F) : List (Str × Val C F) → List (Str × Val C F)
  | [] => []
  | (a, v) :: t => (a, mapCoords r v) :: mapCoordsAttrs r t
termination_by structural l => l
/-- The members of a list. -/
def mapCoordsList (r : F → F) : List (Val C F) → List (Val C F)
  | [] => []
  | v :: t => mapCoords r v :: mapCoordsList r t
termination_by structural l => l
end

/-- The object with its coordinates rounded to `p` decimals: each number is replaced
by the one its text with `p` decimals denotes. -/
def roundCoords [PyExt F] (p : Nat) : Val C F → Val C F := mapCoords (roundTo (some p))

end Verif.Spec
