import Verif.Classes
import Verif.Spec.Typing

/-!
# Which objects are empty: specification
-/

namespace Verif.Spec

variable {F : Type} [PyExt F]

/-- The attribute is set: not `None`. -/
def IsSet (as : List (Str × Val Cls F)) (a : Str) : Prop := attr a as ≠ .none

/-- The attribute is a text that is not empty. -/
def HasText (as : List (Str × Val Cls F)) (a : Str) : Prop := ∃ s, attr a as = .str s ∧ s ≠ []

/-- The attribute is a list that is not empty. -/
def HasMember (as : List (Str × Val Cls F)) (a : Str) : Prop := ∃ w l, attr a as = .list (w :: l)

/-- The object with these attributes is not empty.  `T` says which of its parts are not
empty, and `g` is its geometry. -/
def Filled (T : Val Cls F → Prop) (g : Option (Geo F)) (as : List (Str × Val Cls F)) : Cls → Prop
  -- needs a target
  | .atom_Link | .Link | .Icon => HasText as (s% "href")
  | .StyleUrl => HasText as (s% "url")
  -- needs a name
  | ._Person | .Author | .Contributor => HasText as (s% "name")
  | .Snippet => HasText as (s% "text")
  -- needs a name and a value
  | .Data | .SimpleData => HasText as (s% "name") ∧ HasText as (s% "value")
  | .SimpleField => HasText as (s% "name") ∧ IsSet as (s% "type_")
  | .SchemaData => HasMember as (s% "data") ∧ HasText as (s% "schema_url")
  | .ExtendedData => HasMember as (s% "elements")
  -- times
  | .TimeStamp => IsSet as (s% "timestamp")
  | .TimeSpan => IsSet as (s% "begin") ∨ IsSet as (s% "end")
  -- boxes
  | .LatLonBox | .LatLonAltBox =>
    IsSet as (s% "north") ∧ IsSet as (s% "south") ∧ IsSet as (s% "east") ∧ IsSet as (s% "west")
  | .Region => T (attr (s% "lat_lon_alt_box") as)
  | .Lod => IsSet as (s% "min_lod_pixels")
  | .ViewVolume => IsSet as (s% "left_fov") ∧ IsSet as (s% "right_fov") ∧ IsSet as (s% "bottom_fov") ∧
      IsSet as (s% "top_fov") ∧ IsSet as (s% "near")
  | .ImagePyramid => IsSet as (s% "max_width") ∧ IsSet as (s% "max_height")
  | ._XY | .OverlayXY | .ScreenXY | .RotationXY | .Size => IsSet as (s% "x") ∧ IsSet as (s% "y")
  -- styles
  | .IconStyle => T (attr (s% "icon") as)
  | .LineStyle => IsSet as (s% "width") ∨ IsSet as (s% "color") ∨ IsSet as (s% "color_mode")
  | .PolyStyle => IsSet as (s% "fill") ∨ IsSet as (s% "outline") ∨ IsSet as (s% "color") ∨ IsSet as (s% "color_mode")
  | .LabelStyle => IsSet as (s% "scale") ∨ IsSet as (s% "color") ∨ IsSet as (s% "color_mode")
  | .BalloonStyle => IsSet as (s% "bg_color") ∨ IsSet as (s% "text_color") ∨ IsSet as (s% "text") ∨ IsSet as (s% "display_mode")
  | .Style => ∃ l w, attr (s% "styles") as = .list l ∧ w ∈ l ∧ T w
  | .Pair => IsSet as (s% "key") ∧ IsSet as (s% "style")
  | .StyleMap => HasMember as (s% "pairs")
  -- models
  | .Location => IsSet as (s% "latitude") ∧ IsSet as (s% "longitude")
  | .Orientation => IsSet as (s% "heading") ∨ IsSet as (s% "tilt") ∨ IsSet as (s% "roll")
  | .Scale => IsSet as (s% "x") ∨ IsSet as (s% "y") ∨ IsSet as (s% "z")
  | .Alias => IsSet as (s% "target_href") ∨ IsSet as (s% "source_href")
  | .ResourceMap => HasMember as (s% "aliases")
  | .Model => T (attr (s% "link") as) ∧ T (attr (s% "location") as)
  | .NetworkLink => T (attr (s% "link") as)
  -- geometries
  | .Coordinates => ∃ p l, attr (s% "coords") as = .coords (p :: l)
  | .Point | .LineString | .LinearRing | .BoundaryIs | .OuterBoundaryIs | .InnerBoundaryIs | .MultiGeometry =>
    ∃ k, g = some k ∧ k.nonEmpty = true
  | .Polygon => T (attr (s% "outer_boundary") as)
  | .Track => ∃ i l, attr (s% "track_items") as = .items (i :: l)
  | .MultiTrack => HasMember as (s% "tracks")
  -- never empty: features, views, schemas, documents and abstract classes
  | _ => True

end Verif.Spec
