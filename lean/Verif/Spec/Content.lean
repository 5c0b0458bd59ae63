import Verif.Spec.Valid
import Verif.Spec.Reading

/-!
# What an object should hold of an element: specification

Which attribute of a Python object holds which part of a KML element, and as what
value, according to the schemas and to the naming rule of fastkml: the attribute is the
name of the element in snake case, with the exceptions listed in `holder`.
-/

namespace Verif.Spec

variable {F : Type} [PyExt F]

/-- The local part of a name. -/
def _root_.Verif.QN.name : QN → Str
  | .q _ n => n

/-- `camelCase` to `snake_case`. -/
def snake : Str → Str
  | [] => []
  | c :: cs => if decide (65 ≤ c.toNat ∧ c.toNat ≤ 90) then '_' :: Char.ofNat (c.toNat + 32) :: snake cs
      else c :: snake cs

/-- `CamelCase` to `snake_case`. -/
def snakeName (s : Str) : Str :=
  match snake s with
  | '_' :: t => t
  | t => t

/-- The geometries. -/
def geometryNames : List Str := [s% "Point", s% "LineString", s% "LinearRing", s% "Polygon", s% "MultiGeometry",
  s% "MultiTrack", s% "Track", s% "Model"]

/-- The features. -/
def memberNames : List Str := [s% "Placemark", s% "Folder", s% "Document", s% "NetworkLink", s% "GroundOverlay",
  s% "PhotoOverlay", s% "ScreenOverlay", s% "NetworkLinkControl"]

/-- Elements whose attribute is not named by the rule. -/
def renamed : List (Str × Str) := [
  (s% "open", s% "isopen"), (s% "type", s% "type_"), (s% "targetId", s% "target_id"),
  (s% "xunits", s% "x_units"), (s% "yunits", s% "y_units"),
  (s% "overlayXY", s% "overlay_xy"), (s% "screenXY", s% "screen_xy"), (s% "rotationXY", s% "rotation_xy"),
  (s% "when", s% "timestamp"), (s% "coordinates", s% "kml_coordinates"),
  (s% "author", s% "atom_author"), (s% "link", s% "atom_link"),
  (s% "Camera", s% "view"), (s% "LookAt", s% "view"),
  (s% "TimeStamp", s% "times"), (s% "TimeSpan", s% "times"),
  (s% "Style", s% "styles"), (s% "StyleMap", s% "styles"),
  (s% "IconStyle", s% "styles"), (s% "LabelStyle", s% "styles"), (s% "LineStyle", s% "styles"),
  (s% "PolyStyle", s% "styles"), (s% "BalloonStyle", s% "styles"),
  (s% "Pair", s% "pairs"), (s% "SimpleField", s% "fields"), (s% "Schema", s% "schemata"),
  (s% "Data", s% "elements"), (s% "SchemaData", s% "elements"), (s% "SimpleData", s% "data"),
  (s% "Alias", s% "aliases"),
  (s% "outerBoundaryIs", s% "outer_boundary"), (s% "innerBoundaryIs", s% "inner_boundaries")]

/-- The attribute of an object of class `c` for the child or XML attribute `n`. -/
def holder (c : Cls) (n : Str) : Str :=
  if c = .Pair ∧ (n = s% "Style" ∨ n = s% "styleUrl") then s% "style"
  else if c = .MultiGeometry ∧ n ∈ geometryNames then s% "kml_geometries"
  else if c = .MultiTrack ∧ n = s% "Track" then s% "tracks"
  else if c = .PhotoOverlay ∧ n = s% "Point" then s% "point"
  else if c = .atom_Link ∧ n = s% "type" then n
  else if c = .HotSpot ∧ (n = s% "xunits" ∨ n = s% "yunits") then n
  else if n ∈ geometryNames then s% "kml_geometry"
  else if n ∈ memberNames then s% "features"
  else match dget n renamed with
    | some a => a
    | none => snakeName n

/-- The class of the objects for an element. -/
def classFor (q : QN) : Option Cls := Cls.all.find? fun d => (elemName d).same q

/-- The kinds of values. -/
inductive Kind where
  | text | bool | int | float | time
  /-- one of these texts -/
  | choice (values : List Str)
deriving DecidableEq

/-- The simple types of numbers that are not integers. -/
def floatTypes : List QN := [.q .xs (s% "double"), .q .xs (s% "float"), .q .kml (s% "angle360Type"),
  .q .kml (s% "angle180Type"), .q .kml (s% "angle90Type"), .q .kml (s% "anglepos180Type")]

/-- The kind of the values of a child or XML attribute `n` of type `t`.  The schemas
leave open what `length` and the `type` of a field are; the children of a `Lod` are
floats there. -/
def kindOf (c : Cls) (n : Str) (t : Option QN) : Kind :=
  if c = .Lod then .int
  else if c = .atom_Link ∧ n = s% "length" then .int
  else if c = .SimpleField ∧ n = s% "type" then .choice [s% "string", s% "int", s% "uint", s% "short", s% "ushort",
    s% "float", s% "double", s% "bool"]
  else match t with
    | none => .text
    | some t => match enumDecl t with
      | some e => .choice e.values
      | none =>
        if t = .q .xs (s% "boolean") then .bool
        else if t = .q .xs (s% "int") ∨ t = .q .xs (s% "integer") then .int
        else if t ∈ floatTypes then .float
        else if t = .q .kml (s% "dateTimeType") then .time
        else .text

/-- The text `s` is held as the value `v`. -/
def Means : Kind → Str → Val Cls F → Prop
  | .text, s, v => strip s ≠ [] → ∃ u, v = .str u ∧ strip u = strip s
  | .bool, s, v => (s = s% "1" ∨ s = s% "true" → v = .bool true) ∧ (s = s% "0" ∨ s = s% "false" → v = .bool false)
  | .int, s, v => ∃ i, intParse s = some i ∧ v = .int i
  | .float, s, v => ∃ f, PyExt.parse s = some f ∧ v = .float f
  | .time, s, v => ∃ k, KmlDateTime.parse (PyExt.arrowGet F) s = some k ∧ v = .dt k
  | .choice l, s, v => ∃ e, (∀ x ∈ l, x ∈ EnumId.values e) ∧ v = .enum e s

/-- The children declared by the schemas that fastkml does not know. -/
def unsupported (c : Cls) : List QN :=
  let geo : List QN := [.q .gx (s% "altitudeOffset"), .q .gx (s% "drawOrder")]
  let feat : List QN := [.q .kml (s% "snippet"), .q .kml (s% "Metadata"), .q .gx (s% "balloonVisibility"), .q .gx (s% "rank")]
  match c with
  | .Camera | .LookAt => [.q .gx (s% "horizFov"), .q .gx (s% "TimeStamp"), .q .gx (s% "TimeSpan"), .q .gx (s% "ViewerOptions")]
  | .Link | .Icon => [.q .gx (s% "x"), .q .gx (s% "y"), .q .gx (s% "w"), .q .gx (s% "h")]
  | .IconStyle | .PolyStyle | .LabelStyle => [.q .gx (s% "labelVisibility")]
  | .LineStyle => [.q .gx (s% "labelVisibility"), .q .gx (s% "outerColor"), .q .gx (s% "outerWidth"), .q .gx (s% "physicalWidth")]
  | .BalloonStyle => [.q .kml (s% "color")]
  | .Style => [.q .kml (s% "ListStyle")]
  | .Pair => [.q .kml (s% "StyleMap")]
  | .Schema => [.q .gx (s% "SimpleArrayField")]
  | .SchemaData => [.q .gx (s% "SimpleArrayData")]
  | .Point | .LineString | .LinearRing | .Polygon | .MultiTrack | .Model => geo
  | .MultiGeometry => geo ++ [.q .kml (s% "Model"), .q .gx (s% "Track"), .q .gx (s% "MultiTrack")]
  | .Track => geo ++ [.q .kml (s% "extrude"), .q .kml (s% "tessellate"), .q .kml (s% "Model")]
  | .Placemark | .PhotoOverlay | .ScreenOverlay => feat
  | .NetworkLink => feat ++ [.q .kml (s% "Url")]
  | .GroundOverlay => feat ++ [.q .gx (s% "LatLonQuad")]
  | .Folder | .Document => feat ++ [.q .gx (s% "Tour")]
  | .NetworkLinkControl => [.q .kml (s% "Update")]
  | .KML => [.q .kml (s% "ScreenOverlay"), .q .gx (s% "Tour")]
  | _ => []

/-- The XML attributes declared by the schemas that fastkml does not know. -/
def unsupportedAttrs (c : Cls) : List Str :=
  match c with
  | .LatLonAltBox | .Lod | .Location | .Orientation | .Scale | .Alias | .ResourceMap | .ViewVolume | .ImagePyramid
  | .LatLonBox => [s% "id", s% "targetId"]
  | .KML => [s% "hint"]
  | _ => []

/-- The children of a track that are its rows. -/
def rowNames (c : Cls) : List QN :=
  match c with
  | .Track => [.q .kml (s% "when"), .q .gx (s% "coord"), .q .gx (s% "angles")]
  | _ => []

/-- The attribute for the text of an element. -/
def textHolder (c : Cls) : Option Str :=
  match c with
  | .StyleUrl => some (s% "url")
  | .Snippet => some (s% "text")
  | .SimpleData => some (s% "value")
  | _ => none

mutual
/-- The children of the element are what the type declares, in the prescribed order and
number, at all depths; nothing is required of texts and XML attributes. -/
inductive Ordered : QN → Xml → Prop where
  | simple {t e} (hs : typeDecl t = none) (hk : e.kids = []) : Ordered t e
  | complex {t ty e qs} (hs : typeDecl t = some ty) (hq : Accepts (partsOf 8 t) qs) (hk : OrderedAll qs e.kids) :
      Ordered t e
/-- The elements have the given names and their children are as declared. -/
inductive OrderedAll : List Typed → List Xml → Prop where
  | nil : OrderedAll [] []
  | cons {q t k qs ks} (hn : k.tag = tagOf q) (hv : Ordered t k) (h : OrderedAll qs ks) :
      OrderedAll ((q, some t) :: qs) (k :: ks)
end

/-- The child is not read because another one is: only the first `name`, `uri` and
`email` of an author, and no `Style` of a pair that has a `styleUrl`. -/
def Displaced (c : Cls) (pre post : List Xml) (tag : Str) : Prop :=
  (c = .Author ∧ ∃ k ∈ pre, k.tag = tag) ∨
  (c = .Pair ∧ tag = tagOf (.q .kml (s% "Style")) ∧ ∃ k ∈ pre ++ post, k.tag = tagOf (.q .kml (s% "styleUrl")))

/-- The value `w` is the value of the attribute, or in the list that is the value. -/
def Holds (c : Cls) (a : Str) (attrs : List (Str × Val Cls F)) (w : Val Cls F) : Prop :=
  attr a attrs = w ∨ ∃ l, attr a attrs = .list l ∧
    (w ∈ l ∨ (nonEmpty fastkml w = false ∧ (c = .ExtendedData ∨ c = .MultiTrack)))

/-- The child, whose content is kept by the values in `kept`, is kept. -/
def KeptChild (c : Cls) (attrs : List (Str × Val Cls F)) (k : Xml) (kept : Cls → QN → Val Cls F → Prop) (q : QN)
    (t : QN) : Prop :=
  match classFor q with
  | some d => ∃ w, kept d t w ∧ Holds c (holder c q.name) attrs w
  | none => ∀ s, trimmed k.text = some s → Means (kindOf c q.name (some t)) s (attr (holder c q.name) attrs)

/-- What an object of class `c` with these attributes must satisfy to keep all of the
element, given for each child what it means to keep it. -/
structure KeptStep (c : Cls) (T : QN) (e : Xml) (ks : List (Xml × (Cls → QN → Val Cls F → Prop)))
    (attrs : List (Str × Val Cls F)) : Prop where
  /-- Every XML attribute the type declares, if there is none of the same name in a
  namespace. -/
  attributes : ∀ a ∈ typeAttrs 8 T, a.name ∉ unsupportedAttrs c → ∀ s, e.get a.name = some s → s ≠ [] →
    (∀ x, e.get (uri x ++ a.name) = none) → Means (kindOf c a.name a.type) s (attr (holder c a.name) attrs)
  /-- The text. -/
  text : ∀ a, textHolder c = some a → ∀ s, trimmed e.text = some s → Means .text s (attr a attrs)
  /-- The coordinates. -/
  coords : c = .Coordinates → ∀ s, e.text = some s →
    ∃ l, tuplesOf (latlons s) = some l ∧ attr (s% "coords") attrs = .coords l
  /-- Every child. -/
  children : ∀ pre k post, ks = pre ++ k :: post → ∃ q, k.1.tag = tagOf q ∧
    (q ∈ unsupported c ∨ q ∈ rowNames c ∨ Displaced c (pre.map (·.1)) (post.map (·.1)) k.1.tag ∨
      ∃ t, (∃ p ∈ partsOf 8 T, (q, some t) ∈ p.elems) ∧ KeptChild c attrs k.1 k.2 q t)

mutual
/-- The value is an object of class `c` that holds all that is in the element, an element
of type `T`, at all depths. -/
def Kept : Xml → Cls → QN → Val Cls F → Prop
  | .mk tag as tx ks, c, T, v => ∃ ns nss attrs, v = .obj c ns nss attrs ∧
      KeptStep c T (.mk tag as tx ks) (keptKids ks) attrs
termination_by structural e => e
/-- `Kept` of the children. -/
def keptKids : List Xml → List (Xml × (Cls → QN → Val Cls F → Prop))
  | [] => []
  | k :: ks => (k, fun c T v => Kept k c T v) :: keptKids ks
termination_by structural l => l
end

end Verif.Spec
