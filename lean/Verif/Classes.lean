import Verif.Base

/-!
# The classes and registrations of fastkml

Generated by tools/gen.py from the text of /repo/fastkml; do not edit.
-/

namespace Verif

/-- The subclasses of `_XMLObject` (fastkml/base.py:54).  `atom_Link` is
`fastkml.atom.Link`. -/
inductive Cls where
  /-- fastkml/base.py:54-452 -/
  | _XMLObject
  /-- fastkml/kml_base.py:47-114 -/
  | _BaseObject
  /-- fastkml/atom.py:56-72 -/
  | _AtomObject
  /-- fastkml/atom.py:75-178 -/
  | atom_Link
  /-- fastkml/atom.py:250-322 -/
  | _Person
  /-- fastkml/atom.py:360-365 -/
  | Author
  /-- fastkml/atom.py:368-373 -/
  | Contributor
  /-- fastkml/times.py:221-227 -/
  | _TimePrimitive
  /-- fastkml/times.py:230-293 -/
  | TimeStamp
  /-- fastkml/times.py:309-371 -/
  | TimeSpan
  /-- fastkml/views.py:44-150 -/
  | _AbstractView
  /-- fastkml/views.py:215-314 -/
  | Camera
  /-- fastkml/views.py:343-429 -/
  | LookAt
  /-- fastkml/views.py:457-551 -/
  | LatLonAltBox
  /-- fastkml/views.py:636-713 -/
  | Lod
  /-- fastkml/views.py:766-849 -/
  | Region
  /-- fastkml/links.py:38-123 -/
  | Link
  /-- fastkml/links.py:222-239 -/
  | Icon
  /-- fastkml/styles.py:79-153 -/
  | StyleUrl
  /-- fastkml/styles.py:169-179 -/
  | _StyleSelector
  /-- fastkml/styles.py:182-239 -/
  | _ColorStyle
  /-- fastkml/styles.py:268-355 -/
  | HotSpot
  /-- fastkml/styles.py:408-523 -/
  | IconStyle
  /-- fastkml/styles.py:574-656 -/
  | LineStyle
  /-- fastkml/styles.py:673-765 -/
  | PolyStyle
  /-- fastkml/styles.py:794-879 -/
  | LabelStyle
  /-- fastkml/styles.py:896-1031 -/
  | BalloonStyle
  /-- fastkml/styles.py:1086-1158 -/
  | Style
  /-- fastkml/styles.py:1180-1268 -/
  | Pair
  /-- fastkml/styles.py:1298-1401 -/
  | StyleMap
  /-- fastkml/data.py:60-154 -/
  | SimpleField
  /-- fastkml/data.py:192-286 -/
  | Schema
  /-- fastkml/data.py:324-406 -/
  | Data
  /-- fastkml/data.py:444-515 -/
  | SimpleData
  /-- fastkml/data.py:542-630 -/
  | SchemaData
  /-- fastkml/data.py:657-722 -/
  | ExtendedData
  /-- fastkml/geometry.py:228-297 -/
  | Coordinates
  /-- fastkml/geometry.py:313-361 -/
  | _Geometry
  /-- fastkml/geometry.py:364-498 -/
  | Point
  /-- fastkml/geometry.py:538-665 -/
  | LineString
  /-- fastkml/geometry.py:717-805 -/
  | LinearRing
  /-- fastkml/geometry.py:808-907 -/
  | BoundaryIs
  /-- fastkml/geometry.py:910-924 -/
  | OuterBoundaryIs
  /-- fastkml/geometry.py:927-933 -/
  | InnerBoundaryIs
  /-- fastkml/geometry.py:949-1131 -/
  | Polygon
  /-- fastkml/geometry.py:1228-1341 -/
  | MultiGeometry
  /-- fastkml/gx.py:184-371 -/
  | Track
  /-- fastkml/gx.py:453-555 -/
  | MultiTrack
  /-- fastkml/model.py:56-104 -/
  | Location
  /-- fastkml/model.py:143-184 -/
  | Orientation
  /-- fastkml/model.py:225-264 -/
  | Scale
  /-- fastkml/model.py:305-340 -/
  | Alias
  /-- fastkml/model.py:367-398 -/
  | ResourceMap
  /-- fastkml/model.py:414-478 -/
  | Model
  /-- fastkml/features.py:89-173 -/
  | Snippet
  /-- fastkml/features.py:201-308 -/
  | _Feature
  /-- fastkml/features.py:489-661 -/
  | Placemark
  /-- fastkml/features.py:689-891 -/
  | NetworkLink
  /-- fastkml/overlays.py:94-226 -/
  | _Overlay
  /-- fastkml/overlays.py:266-377 -/
  | ViewVolume
  /-- fastkml/overlays.py:442-547 -/
  | ImagePyramid
  /-- fastkml/overlays.py:598-818 -/
  | PhotoOverlay
  /-- fastkml/overlays.py:880-989 -/
  | LatLonBox
  /-- fastkml/overlays.py:1050-1238 -/
  | GroundOverlay
  /-- fastkml/overlays.py:1278-1349 -/
  | _XY
  /-- fastkml/overlays.py:1400-1406 -/
  | OverlayXY
  /-- fastkml/overlays.py:1409-1415 -/
  | ScreenXY
  /-- fastkml/overlays.py:1418-1424 -/
  | RotationXY
  /-- fastkml/overlays.py:1427-1433 -/
  | Size
  /-- fastkml/overlays.py:1436-1619 -/
  | ScreenOverlay
  /-- fastkml/containers.py:72-167 -/
  | _Container
  /-- fastkml/containers.py:170-177 -/
  | Folder
  /-- fastkml/containers.py:180-326 -/
  | Document
  /-- fastkml/network_link_control.py:54-155 -/
  | NetworkLinkControl
  /-- fastkml/kml.py:111-290 -/
  | KML
deriving DecidableEq, Repr

/-- All classes. -/
def Cls.all : List Cls := [._XMLObject, ._BaseObject, ._AtomObject, .atom_Link, ._Person, .Author, .Contributor, ._TimePrimitive, .TimeStamp, .TimeSpan, ._AbstractView, .Camera, .LookAt, .LatLonAltBox, .Lod, .Region, .Link, .Icon, .StyleUrl, ._StyleSelector, ._ColorStyle, .HotSpot, .IconStyle, .LineStyle, .PolyStyle, .LabelStyle, .BalloonStyle, .Style, .Pair, .StyleMap, .SimpleField, .Schema, .Data, .SimpleData, .SchemaData, .ExtendedData, .Coordinates, ._Geometry, .Point, .LineString, .LinearRing, .BoundaryIs, .OuterBoundaryIs, .InnerBoundaryIs, .Polygon, .MultiGeometry, .Track, .MultiTrack, .Location, .Orientation, .Scale, .Alias, .ResourceMap, .Model, .Snippet, ._Feature, .Placemark, .NetworkLink, ._Overlay, .ViewVolume, .ImagePyramid, .PhotoOverlay, .LatLonBox, .GroundOverlay, ._XY, .OverlayXY, .ScreenXY, .RotationXY, .Size, .ScreenOverlay, ._Container, .Folder, .Document, .NetworkLinkControl, .KML]

theorem Cls.mem_all (c : Cls) : c ∈ Cls.all := by cases c <;> simp [Cls.all]

/-- `base._XMLObject` (fastkml/base.py:54-452); tag fastkml/base.py:266-276;
constructor fastkml/base.py:62-88;
truth value no `__bool__`; geometry no `geometry`. -/
def info__XMLObject : ClsInfo Cls where
  mro := [._XMLObject]
  tag := (s% "_XMLObject")
  nsid := (s% "")
  slots := []
  kwargs := true
  bool := .always
  geom := .none
  special := .none

/-- `kml_base._BaseObject` (fastkml/kml_base.py:47-114); tag fastkml/base.py:266-276;
constructor fastkml/kml_base.py:64-95, fastkml/base.py:62-88;
truth value no `__bool__`; geometry no `geometry`. -/
def info__BaseObject : ClsInfo Cls where
  mro := [._BaseObject, ._XMLObject]
  tag := (s% "_BaseObject")
  nsid := (s% "kml")
  slots := [((s% "id"), .orEmpty),
    ((s% "target_id"), .orEmpty)]
  kwargs := true
  bool := .always
  geom := .none
  special := .none

/-- `atom._AtomObject` (fastkml/atom.py:56-72); tag fastkml/atom.py:70-72;
constructor fastkml/base.py:62-88;
truth value no `__bool__`; geometry no `geometry`. -/
def info__AtomObject : ClsInfo Cls where
  mro := [._AtomObject, ._XMLObject]
  tag := (s% "_atomobject")
  nsid := (s% "atom")
  slots := []
  kwargs := true
  bool := .always
  geom := .none
  special := .none

/-- `atom.Link` (fastkml/atom.py:75-178); tag fastkml/atom.py:70-72;
constructor fastkml/atom.py:93-142, fastkml/base.py:62-88;
truth value fastkml/atom.py:168-178; geometry no `geometry`. -/
def info_atom_Link : ClsInfo Cls where
  mro := [.atom_Link, ._AtomObject, ._XMLObject]
  tag := (s% "link")
  nsid := (s% "atom")
  slots := [((s% "href"), .clean),
    ((s% "rel"), .clean),
    ((s% "type"), .clean),
    ((s% "hreflang"), .clean),
    ((s% "title"), .clean),
    ((s% "length"), .raw)]
  kwargs := true
  bool := .allTruthy [(s% "href")]
  geom := .none
  special := .none

/-- `atom._Person` (fastkml/atom.py:250-322); tag fastkml/atom.py:70-72;
constructor fastkml/atom.py:266-291, fastkml/base.py:62-88;
truth value fastkml/atom.py:313-322; geometry no `geometry`. -/
def info__Person : ClsInfo Cls where
  mro := [._Person, ._AtomObject, ._XMLObject]
  tag := (s% "_person")
  nsid := (s% "atom")
  slots := [((s% "name"), .clean),
    ((s% "uri"), .clean),
    ((s% "email"), .clean)]
  kwargs := true
  bool := .allTruthy [(s% "name")]
  geom := .none
  special := .none

/-- `atom.Author` (fastkml/atom.py:360-365); tag fastkml/atom.py:70-72;
constructor fastkml/atom.py:266-291, fastkml/base.py:62-88;
truth value fastkml/atom.py:313-322; geometry no `geometry`. -/
def info_Author : ClsInfo Cls where
  mro := [.Author, ._Person, ._AtomObject, ._XMLObject]
  tag := (s% "author")
  nsid := (s% "atom")
  slots := [((s% "name"), .clean),
    ((s% "uri"), .clean),
    ((s% "email"), .clean)]
  kwargs := true
  bool := .allTruthy [(s% "name")]
  geom := .none
  special := .none

/-- `atom.Contributor` (fastkml/atom.py:368-373); tag fastkml/atom.py:70-72;
constructor fastkml/atom.py:266-291, fastkml/base.py:62-88;
truth value fastkml/atom.py:313-322; geometry no `geometry`. -/
def info_Contributor : ClsInfo Cls where
  mro := [.Contributor, ._Person, ._AtomObject, ._XMLObject]
  tag := (s% "contributor")
  nsid := (s% "atom")
  slots := [((s% "name"), .clean),
    ((s% "uri"), .clean),
    ((s% "email"), .clean)]
  kwargs := true
  bool := .allTruthy [(s% "name")]
  geom := .none
  special := .none

/-- `times._TimePrimitive` (fastkml/times.py:221-227); tag fastkml/base.py:266-276;
constructor fastkml/kml_base.py:64-95, fastkml/base.py:62-88;
truth value no `__bool__`; geometry no `geometry`. -/
def info__TimePrimitive : ClsInfo Cls where
  mro := [._TimePrimitive, ._BaseObject, ._XMLObject]
  tag := (s% "_TimePrimitive")
  nsid := (s% "kml")
  slots := [((s% "id"), .orEmpty),
    ((s% "target_id"), .orEmpty)]
  kwargs := true
  bool := .always
  geom := .none
  special := .none

/-- `times.TimeStamp` (fastkml/times.py:230-293); tag fastkml/base.py:266-276;
constructor fastkml/times.py:237-276, fastkml/kml_base.py:64-95, fastkml/base.py:62-88;
truth value fastkml/times.py:291-293; geometry no `geometry`. -/
def info_TimeStamp : ClsInfo Cls where
  mro := [.TimeStamp, ._TimePrimitive, ._BaseObject, ._XMLObject]
  tag := (s% "TimeStamp")
  nsid := (s% "kml")
  slots := [((s% "id"), .orEmpty),
    ((s% "target_id"), .orEmpty),
    ((s% "timestamp"), .raw)]
  kwargs := true
  bool := .allTruthy [(s% "timestamp")]
  geom := .none
  special := .none

/-- `times.TimeSpan` (fastkml/times.py:309-371); tag fastkml/base.py:266-276;
constructor fastkml/times.py:316-353, fastkml/kml_base.py:64-95, fastkml/base.py:62-88;
truth value fastkml/times.py:369-371; geometry no `geometry`. -/
def info_TimeSpan : ClsInfo Cls where
  mro := [.TimeSpan, ._TimePrimitive, ._BaseObject, ._XMLObject]
  tag := (s% "TimeSpan")
  nsid := (s% "kml")
  slots := [((s% "id"), .orEmpty),
    ((s% "target_id"), .orEmpty),
    ((s% "begin"), .raw),
    ((s% "end"), .raw)]
  kwargs := true
  bool := .anyTruthy [(s% "begin"), (s% "end")]
  geom := .none
  special := .none

/-- `views._AbstractView` (fastkml/views.py:44-150); tag fastkml/base.py:266-276;
constructor fastkml/views.py:91-150, fastkml/kml_base.py:64-95, fastkml/base.py:62-88;
truth value no `__bool__`; geometry no `geometry`. -/
def info__AbstractView : ClsInfo Cls where
  mro := [._AbstractView, ._BaseObject, ._XMLObject]
  tag := (s% "_AbstractView")
  nsid := (s% "kml")
  slots := [((s% "id"), .orEmpty),
    ((s% "target_id"), .orEmpty),
    ((s% "longitude"), .raw),
    ((s% "latitude"), .raw),
    ((s% "altitude"), .raw),
    ((s% "heading"), .raw),
    ((s% "tilt"), .raw),
    ((s% "altitude_mode"), .raw)]
  kwargs := true
  bool := .always
  geom := .none
  special := .none

/-- `views.Camera` (fastkml/views.py:215-314); tag fastkml/base.py:266-276;
constructor fastkml/views.py:244-295, fastkml/views.py:91-150, fastkml/kml_base.py:64-95, fastkml/base.py:62-88;
truth value no `__bool__`; geometry no `geometry`. -/
def info_Camera : ClsInfo Cls where
  mro := [.Camera, ._AbstractView, ._BaseObject, ._XMLObject]
  tag := (s% "Camera")
  nsid := (s% "kml")
  slots := [((s% "id"), .orEmpty),
    ((s% "target_id"), .orEmpty),
    ((s% "longitude"), .raw),
    ((s% "latitude"), .raw),
    ((s% "altitude"), .raw),
    ((s% "heading"), .raw),
    ((s% "tilt"), .raw),
    ((s% "altitude_mode"), .raw),
    ((s% "roll"), .raw)]
  kwargs := true
  bool := .always
  geom := .none
  special := .none

/-- `views.LookAt` (fastkml/views.py:343-429); tag fastkml/base.py:266-276;
constructor fastkml/views.py:358-410, fastkml/views.py:91-150, fastkml/kml_base.py:64-95, fastkml/base.py:62-88;
truth value no `__bool__`; geometry no `geometry`. -/
def info_LookAt : ClsInfo Cls where
  mro := [.LookAt, ._AbstractView, ._BaseObject, ._XMLObject]
  tag := (s% "LookAt")
  nsid := (s% "kml")
  slots := [((s% "id"), .orEmpty),
    ((s% "target_id"), .orEmpty),
    ((s% "longitude"), .raw),
    ((s% "latitude"), .raw),
    ((s% "altitude"), .raw),
    ((s% "heading"), .raw),
    ((s% "tilt"), .raw),
    ((s% "altitude_mode"), .raw),
    ((s% "range"), .raw)]
  kwargs := true
  bool := .always
  geom := .none
  special := .none

/-- `views.LatLonAltBox` (fastkml/views.py:457-551); tag fastkml/base.py:266-276;
constructor fastkml/views.py:474-516, fastkml/base.py:62-88;
truth value fastkml/views.py:535-551; geometry no `geometry`. -/
def info_LatLonAltBox : ClsInfo Cls where
  mro := [.LatLonAltBox, ._XMLObject]
  tag := (s% "LatLonAltBox")
  nsid := (s% "kml")
  slots := [((s% "north"), .raw),
    ((s% "south"), .raw),
    ((s% "east"), .raw),
    ((s% "west"), .raw),
    ((s% "min_altitude"), .raw),
    ((s% "max_altitude"), .raw),
    ((s% "altitude_mode"), .raw)]
  kwargs := true
  bool := .allNotNone [(s% "north"), (s% "south"), (s% "east"), (s% "west")]
  geom := .none
  special := .none

/-- `views.Lod` (fastkml/views.py:636-713); tag fastkml/base.py:266-276;
constructor fastkml/views.py:655-688, fastkml/base.py:62-88;
truth value fastkml/views.py:704-713; geometry no `geometry`. -/
def info_Lod : ClsInfo Cls where
  mro := [.Lod, ._XMLObject]
  tag := (s% "Lod")
  nsid := (s% "kml")
  slots := [((s% "min_lod_pixels"), .raw),
    ((s% "max_lod_pixels"), .raw),
    ((s% "min_fade_extent"), .raw),
    ((s% "max_fade_extent"), .raw)]
  kwargs := true
  bool := .allNotNone [(s% "min_lod_pixels")]
  geom := .none
  special := .none

/-- `views.Region` (fastkml/views.py:766-849); tag fastkml/base.py:266-276;
constructor fastkml/views.py:781-824, fastkml/kml_base.py:64-95, fastkml/base.py:62-88;
truth value fastkml/views.py:840-849; geometry no `geometry`. -/
def info_Region : ClsInfo Cls where
  mro := [.Region, ._BaseObject, ._XMLObject]
  tag := (s% "Region")
  nsid := (s% "kml")
  slots := [((s% "id"), .orEmpty),
    ((s% "target_id"), .orEmpty),
    ((s% "lat_lon_alt_box"), .raw),
    ((s% "lod"), .raw)]
  kwargs := true
  bool := .allTruthy [(s% "lat_lon_alt_box")]
  geom := .none
  special := .none

/-- `links.Link` (fastkml/links.py:38-123); tag fastkml/base.py:266-276;
constructor fastkml/links.py:60-91, fastkml/kml_base.py:64-95, fastkml/base.py:62-88;
truth value fastkml/links.py:113-123; geometry no `geometry`. -/
def info_Link : ClsInfo Cls where
  mro := [.Link, ._BaseObject, ._XMLObject]
  tag := (s% "Link")
  nsid := (s% "kml")
  slots := [((s% "id"), .orEmpty),
    ((s% "target_id"), .orEmpty),
    ((s% "href"), .clean),
    ((s% "refresh_mode"), .raw),
    ((s% "refresh_interval"), .raw),
    ((s% "view_refresh_mode"), .raw),
    ((s% "view_refresh_time"), .raw),
    ((s% "view_bound_scale"), .raw),
    ((s% "view_format"), .clean),
    ((s% "http_query"), .clean)]
  kwargs := true
  bool := .allTruthy [(s% "href")]
  geom := .none
  special := .none

/-- `links.Icon` (fastkml/links.py:222-239); tag fastkml/base.py:266-276;
constructor fastkml/links.py:60-91, fastkml/kml_base.py:64-95, fastkml/base.py:62-88;
truth value fastkml/links.py:113-123; geometry no `geometry`. -/
def info_Icon : ClsInfo Cls where
  mro := [.Icon, .Link, ._BaseObject, ._XMLObject]
  tag := (s% "Icon")
  nsid := (s% "kml")
  slots := [((s% "id"), .orEmpty),
    ((s% "target_id"), .orEmpty),
    ((s% "href"), .clean),
    ((s% "refresh_mode"), .raw),
    ((s% "refresh_interval"), .raw),
    ((s% "view_refresh_mode"), .raw),
    ((s% "view_refresh_time"), .raw),
    ((s% "view_bound_scale"), .raw),
    ((s% "view_format"), .clean),
    ((s% "http_query"), .clean)]
  kwargs := true
  bool := .allTruthy [(s% "href")]
  geom := .none
  special := .none

/-- `styles.StyleUrl` (fastkml/styles.py:79-153); tag fastkml/styles.py:151-153;
constructor fastkml/styles.py:94-125, fastkml/base.py:62-88;
truth value fastkml/styles.py:138-148; geometry no `geometry`. -/
def info_StyleUrl : ClsInfo Cls where
  mro := [.StyleUrl, ._XMLObject]
  tag := (s% "styleUrl")
  nsid := (s% "kml")
  slots := [((s% "url"), .clean)]
  kwargs := true
  bool := .allTruthy [(s% "url")]
  geom := .none
  special := .none

/-- `styles._StyleSelector` (fastkml/styles.py:169-179); tag fastkml/base.py:266-276;
constructor fastkml/kml_base.py:64-95, fastkml/base.py:62-88;
truth value no `__bool__`; geometry no `geometry`. -/
def info__StyleSelector : ClsInfo Cls where
  mro := [._StyleSelector, ._BaseObject, ._XMLObject]
  tag := (s% "_StyleSelector")
  nsid := (s% "kml")
  slots := [((s% "id"), .orEmpty),
    ((s% "target_id"), .orEmpty)]
  kwargs := true
  bool := .always
  geom := .none
  special := .none

/-- `styles._ColorStyle` (fastkml/styles.py:182-239); tag fastkml/base.py:266-276;
constructor fastkml/styles.py:203-239, fastkml/kml_base.py:64-95, fastkml/base.py:62-88;
truth value no `__bool__`; geometry no `geometry`. -/
def info__ColorStyle : ClsInfo Cls where
  mro := [._ColorStyle, ._BaseObject, ._XMLObject]
  tag := (s% "_ColorStyle")
  nsid := (s% "kml")
  slots := [((s% "id"), .orEmpty),
    ((s% "target_id"), .orEmpty),
    ((s% "color"), .clean),
    ((s% "color_mode"), .raw)]
  kwargs := true
  bool := .always
  geom := .none
  special := .none

/-- `styles.HotSpot` (fastkml/styles.py:268-355); tag fastkml/styles.py:353-355;
constructor fastkml/styles.py:292-325, fastkml/base.py:62-88;
truth value fastkml/styles.py:341-350; geometry no `geometry`. -/
def info_HotSpot : ClsInfo Cls where
  mro := [.HotSpot, ._XMLObject]
  tag := (s% "hotSpot")
  nsid := (s% "kml")
  slots := [((s% "x"), .raw),
    ((s% "y"), .raw),
    ((s% "xunits"), .raw),
    ((s% "yunits"), .raw)]
  kwargs := true
  bool := .always
  geom := .none
  special := .none

/-- `styles.IconStyle` (fastkml/styles.py:408-523); tag fastkml/base.py:266-276;
constructor fastkml/styles.py:429-488, fastkml/styles.py:203-239, fastkml/kml_base.py:64-95, fastkml/base.py:62-88;
truth value fastkml/styles.py:508-518; geometry no `geometry`. -/
def info_IconStyle : ClsInfo Cls where
  mro := [.IconStyle, ._ColorStyle, ._BaseObject, ._XMLObject]
  tag := (s% "IconStyle")
  nsid := (s% "kml")
  slots := [((s% "id"), .orEmpty),
    ((s% "target_id"), .orEmpty),
    ((s% "color"), .clean),
    ((s% "color_mode"), .raw),
    ((s% "scale"), .raw),
    ((s% "heading"), .raw),
    ((s% "icon"), .raw),
    ((s% "hot_spot"), .raw)]
  kwargs := true
  bool := .allTruthy [(s% "icon")]
  geom := .none
  special := .none

/-- `styles.LineStyle` (fastkml/styles.py:574-656); tag fastkml/base.py:266-276;
constructor fastkml/styles.py:586-626, fastkml/styles.py:203-239, fastkml/kml_base.py:64-95, fastkml/base.py:62-88;
truth value fastkml/styles.py:643-656; geometry no `geometry`. -/
def info_LineStyle : ClsInfo Cls where
  mro := [.LineStyle, ._ColorStyle, ._BaseObject, ._XMLObject]
  tag := (s% "LineStyle")
  nsid := (s% "kml")
  slots := [((s% "id"), .orEmpty),
    ((s% "target_id"), .orEmpty),
    ((s% "color"), .clean),
    ((s% "color_mode"), .raw),
    ((s% "width"), .raw)]
  kwargs := true
  bool := .anyNotNone [(s% "width"), (s% "color"), (s% "color_mode")]
  geom := .none
  special := .none

/-- `styles.PolyStyle` (fastkml/styles.py:673-765); tag fastkml/base.py:266-276;
constructor fastkml/styles.py:690-733, fastkml/styles.py:203-239, fastkml/kml_base.py:64-95, fastkml/base.py:62-88;
truth value fastkml/styles.py:751-765; geometry no `geometry`. -/
def info_PolyStyle : ClsInfo Cls where
  mro := [.PolyStyle, ._ColorStyle, ._BaseObject, ._XMLObject]
  tag := (s% "PolyStyle")
  nsid := (s% "kml")
  slots := [((s% "id"), .orEmpty),
    ((s% "target_id"), .orEmpty),
    ((s% "color"), .clean),
    ((s% "color_mode"), .raw),
    ((s% "fill"), .raw),
    ((s% "outline"), .raw)]
  kwargs := true
  bool := .anyNotNone [(s% "fill"), (s% "outline"), (s% "color"), (s% "color_mode")]
  geom := .none
  special := .none

/-- `styles.LabelStyle` (fastkml/styles.py:794-879); tag fastkml/base.py:266-276;
constructor fastkml/styles.py:806-846, fastkml/styles.py:203-239, fastkml/kml_base.py:64-95, fastkml/base.py:62-88;
truth value fastkml/styles.py:863-879; geometry no `geometry`. -/
def info_LabelStyle : ClsInfo Cls where
  mro := [.LabelStyle, ._ColorStyle, ._BaseObject, ._XMLObject]
  tag := (s% "LabelStyle")
  nsid := (s% "kml")
  slots := [((s% "id"), .orEmpty),
    ((s% "target_id"), .orEmpty),
    ((s% "color"), .clean),
    ((s% "color_mode"), .raw),
    ((s% "scale"), .raw)]
  kwargs := true
  bool := .anyNotNone [(s% "scale"), (s% "color"), (s% "color_mode")]
  geom := .none
  special := .none

/-- `styles.BalloonStyle` (fastkml/styles.py:896-1031); tag fastkml/base.py:266-276;
constructor fastkml/styles.py:949-992, fastkml/kml_base.py:64-95, fastkml/base.py:62-88;
truth value fastkml/styles.py:1010-1031; geometry no `geometry`. -/
def info_BalloonStyle : ClsInfo Cls where
  mro := [.BalloonStyle, ._BaseObject, ._XMLObject]
  tag := (s% "BalloonStyle")
  nsid := (s% "kml")
  slots := [((s% "id"), .orEmpty),
    ((s% "target_id"), .orEmpty),
    ((s% "bg_color"), .clean),
    ((s% "text_color"), .clean),
    ((s% "text"), .clean),
    ((s% "display_mode"), .raw)]
  kwargs := true
  bool := .anyNotNone [(s% "bg_color"), (s% "text_color"), (s% "text"), (s% "display_mode")]
  geom := .none
  special := .none

/-- `styles.Style` (fastkml/styles.py:1086-1158); tag fastkml/base.py:266-276;
constructor fastkml/styles.py:1099-1133, fastkml/kml_base.py:64-95, fastkml/base.py:62-88;
truth value fastkml/styles.py:1148-1158; geometry no `geometry`. -/
def info_Style : ClsInfo Cls where
  mro := [.Style, ._StyleSelector, ._BaseObject, ._XMLObject]
  tag := (s% "Style")
  nsid := (s% "kml")
  slots := [((s% "id"), .orEmpty),
    ((s% "target_id"), .orEmpty),
    ((s% "styles"), .listOr)]
  kwargs := true
  bool := .anyElem (s% "styles")
  geom := .none
  special := .none

/-- `styles.Pair` (fastkml/styles.py:1180-1268); tag fastkml/base.py:266-276;
constructor fastkml/styles.py:1200-1243, fastkml/kml_base.py:64-95, fastkml/base.py:62-88;
truth value fastkml/styles.py:1259-1268; geometry no `geometry`. -/
def info_Pair : ClsInfo Cls where
  mro := [.Pair, ._BaseObject, ._XMLObject]
  tag := (s% "Pair")
  nsid := (s% "kml")
  slots := [((s% "id"), .orEmpty),
    ((s% "target_id"), .orEmpty),
    ((s% "key"), .raw),
    ((s% "style"), .raw)]
  kwargs := true
  bool := .allNotNone [(s% "key"), (s% "style")]
  geom := .none
  special := .none

/-- `styles.StyleMap` (fastkml/styles.py:1298-1401); tag fastkml/base.py:266-276;
constructor fastkml/styles.py:1311-1345, fastkml/kml_base.py:64-95, fastkml/base.py:62-88;
truth value fastkml/styles.py:1360-1370; geometry no `geometry`. -/
def info_StyleMap : ClsInfo Cls where
  mro := [.StyleMap, ._StyleSelector, ._BaseObject, ._XMLObject]
  tag := (s% "StyleMap")
  nsid := (s% "kml")
  slots := [((s% "id"), .orEmpty),
    ((s% "target_id"), .orEmpty),
    ((s% "pairs"), .listOr)]
  kwargs := true
  bool := .allTruthy [(s% "pairs")]
  geom := .none
  special := .none

/-- `data.SimpleField` (fastkml/data.py:60-154); tag fastkml/base.py:266-276;
constructor fastkml/data.py:89-123, fastkml/base.py:62-88;
truth value fastkml/data.py:145-154; geometry no `geometry`. -/
def info_SimpleField : ClsInfo Cls where
  mro := [.SimpleField, ._XMLObject]
  tag := (s% "SimpleField")
  nsid := (s% "kml")
  slots := [((s% "name"), .clean),
    ((s% "type_"), .orNone),
    ((s% "display_name"), .clean)]
  kwargs := true
  bool := .allTruthy [(s% "name"), (s% "type_")]
  geom := .none
  special := .none

/-- `data.Schema` (fastkml/data.py:192-286); tag fastkml/base.py:266-276;
constructor fastkml/data.py:208-253, fastkml/base.py:62-88;
truth value no `__bool__`; geometry no `geometry`. -/
def info_Schema : ClsInfo Cls where
  mro := [.Schema, ._XMLObject]
  tag := (s% "Schema")
  nsid := (s% "kml")
  slots := [((s% "name"), .clean),
    ((s% "fields"), .listOr),
    ((s% "id"), .clean)]
  kwargs := true
  bool := .always
  geom := .none
  special := .schema

/-- `data.Data` (fastkml/data.py:324-406); tag fastkml/base.py:266-276;
constructor fastkml/data.py:331-371, fastkml/kml_base.py:64-95, fastkml/base.py:62-88;
truth value fastkml/data.py:396-406; geometry no `geometry`. -/
def info_Data : ClsInfo Cls where
  mro := [.Data, ._BaseObject, ._XMLObject]
  tag := (s% "Data")
  nsid := (s% "kml")
  slots := [((s% "id"), .orEmpty),
    ((s% "target_id"), .orEmpty),
    ((s% "name"), .clean),
    ((s% "value"), .clean),
    ((s% "display_name"), .clean)]
  kwargs := true
  bool := .allTruthy [(s% "name"), (s% "value")]
  geom := .none
  special := .none

/-- `data.SimpleData` (fastkml/data.py:444-515); tag fastkml/base.py:266-276;
constructor fastkml/data.py:458-485, fastkml/base.py:62-88;
truth value fastkml/data.py:506-515; geometry no `geometry`. -/
def info_SimpleData : ClsInfo Cls where
  mro := [.SimpleData, ._XMLObject]
  tag := (s% "SimpleData")
  nsid := (s% "kml")
  slots := [((s% "name"), .clean),
    ((s% "value"), .clean)]
  kwargs := true
  bool := .allTruthy [(s% "name"), (s% "value")]
  geom := .none
  special := .none

/-- `data.SchemaData` (fastkml/data.py:542-630); tag fastkml/base.py:266-276;
constructor fastkml/data.py:556-593, fastkml/kml_base.py:64-95, fastkml/base.py:62-88;
truth value fastkml/data.py:609-619; geometry no `geometry`. -/
def info_SchemaData : ClsInfo Cls where
  mro := [.SchemaData, ._BaseObject, ._XMLObject]
  tag := (s% "SchemaData")
  nsid := (s% "kml")
  slots := [((s% "id"), .orEmpty),
    ((s% "target_id"), .orEmpty),
    ((s% "schema_url"), .clean),
    ((s% "data"), .listOr)]
  kwargs := true
  bool := .allTruthy [(s% "data"), (s% "schema_url")]
  geom := .none
  special := .none

/-- `data.ExtendedData` (fastkml/data.py:657-722); tag fastkml/base.py:266-276;
constructor fastkml/data.py:663-692, fastkml/base.py:62-88;
truth value fastkml/data.py:712-722; geometry no `geometry`. -/
def info_ExtendedData : ClsInfo Cls where
  mro := [.ExtendedData, ._XMLObject]
  tag := (s% "ExtendedData")
  nsid := (s% "kml")
  slots := [((s% "elements"), .listTruthy)]
  kwargs := true
  bool := .allTruthy [(s% "elements")]
  geom := .none
  special := .none

/-- `geometry.Coordinates` (fastkml/geometry.py:228-297); tag fastkml/geometry.py:295-297;
constructor fastkml/geometry.py:245-269, fastkml/base.py:62-88;
truth value fastkml/geometry.py:282-292; geometry no `geometry`. -/
def info_Coordinates : ClsInfo Cls where
  mro := [.Coordinates, ._XMLObject]
  tag := (s% "coordinates")
  nsid := (s% "kml")
  slots := [((s% "coords"), .coordsOr)]
  kwargs := true
  bool := .allTruthy [(s% "coords")]
  geom := .none
  special := .none

/-- `geometry._Geometry` (fastkml/geometry.py:313-361); tag fastkml/base.py:266-276;
constructor fastkml/geometry.py:328-361, fastkml/kml_base.py:64-95, fastkml/base.py:62-88;
truth value no `__bool__`; geometry no `geometry`. -/
def info__Geometry : ClsInfo Cls where
  mro := [._Geometry, ._BaseObject, ._XMLObject]
  tag := (s% "_Geometry")
  nsid := (s% "kml")
  slots := [((s% "id"), .orEmpty),
    ((s% "target_id"), .orEmpty),
    ((s% "altitude_mode"), .raw)]
  kwargs := true
  bool := .always
  geom := .none
  special := .none

/-- `geometry.Point` (fastkml/geometry.py:364-498); tag fastkml/base.py:266-276;
constructor fastkml/geometry.py:379-432, fastkml/geometry.py:328-361, fastkml/kml_base.py:64-95, fastkml/base.py:62-88;
truth value fastkml/geometry.py:456-465; geometry fastkml/geometry.py:483-498. -/
def info_Point : ClsInfo Cls where
  mro := [.Point, ._Geometry, ._BaseObject, ._XMLObject]
  tag := (s% "Point")
  nsid := (s% "kml")
  slots := [((s% "kml_coordinates"), .raw),
    ((s% "extrude"), .raw),
    ((s% "id"), .orEmpty),
    ((s% "target_id"), .orEmpty),
    ((s% "altitude_mode"), .raw)]
  kwargs := true
  bool := .geometry
  geom := .point
  special := .none

/-- `geometry.LineString` (fastkml/geometry.py:538-665); tag fastkml/base.py:266-276;
constructor fastkml/geometry.py:556-605, fastkml/geometry.py:328-361, fastkml/kml_base.py:64-95, fastkml/base.py:62-88;
truth value fastkml/geometry.py:623-632; geometry fastkml/geometry.py:650-665. -/
def info_LineString : ClsInfo Cls where
  mro := [.LineString, ._Geometry, ._BaseObject, ._XMLObject]
  tag := (s% "LineString")
  nsid := (s% "kml")
  slots := [((s% "kml_coordinates"), .raw),
    ((s% "extrude"), .raw),
    ((s% "tessellate"), .raw),
    ((s% "id"), .orEmpty),
    ((s% "target_id"), .orEmpty),
    ((s% "altitude_mode"), .raw)]
  kwargs := true
  bool := .geometry
  geom := .lineString
  special := .none

/-- `geometry.LinearRing` (fastkml/geometry.py:717-805); tag fastkml/base.py:266-276;
constructor fastkml/geometry.py:728-784, fastkml/geometry.py:556-605, fastkml/geometry.py:328-361, fastkml/kml_base.py:64-95, fastkml/base.py:62-88;
truth value fastkml/geometry.py:623-632; geometry fastkml/geometry.py:787-805. -/
def info_LinearRing : ClsInfo Cls where
  mro := [.LinearRing, .LineString, ._Geometry, ._BaseObject, ._XMLObject]
  tag := (s% "LinearRing")
  nsid := (s% "kml")
  slots := [((s% "kml_coordinates"), .raw),
    ((s% "extrude"), .raw),
    ((s% "tessellate"), .raw),
    ((s% "id"), .orEmpty),
    ((s% "target_id"), .orEmpty),
    ((s% "altitude_mode"), .raw)]
  kwargs := true
  bool := .geometry
  geom := .linearRing
  special := .none

/-- `geometry.BoundaryIs` (fastkml/geometry.py:808-907); tag fastkml/base.py:266-276;
constructor fastkml/geometry.py:822-871, fastkml/base.py:62-88;
truth value fastkml/geometry.py:873-883; geometry fastkml/geometry.py:897-907. -/
def info_BoundaryIs : ClsInfo Cls where
  mro := [.BoundaryIs, ._XMLObject]
  tag := (s% "BoundaryIs")
  nsid := (s% "kml")
  slots := [((s% "kml_geometry"), .raw)]
  kwargs := true
  bool := .geometry
  geom := .boundary
  special := .none

/-- `geometry.OuterBoundaryIs` (fastkml/geometry.py:910-924); tag fastkml/geometry.py:914-924;
constructor fastkml/geometry.py:822-871, fastkml/base.py:62-88;
truth value fastkml/geometry.py:873-883; geometry fastkml/geometry.py:897-907. -/
def info_OuterBoundaryIs : ClsInfo Cls where
  mro := [.OuterBoundaryIs, .BoundaryIs, ._XMLObject]
  tag := (s% "outerBoundaryIs")
  nsid := (s% "kml")
  slots := [((s% "kml_geometry"), .raw)]
  kwargs := true
  bool := .geometry
  geom := .boundary
  special := .none

/-- `geometry.InnerBoundaryIs` (fastkml/geometry.py:927-933); tag fastkml/geometry.py:931-933;
constructor fastkml/geometry.py:822-871, fastkml/base.py:62-88;
truth value fastkml/geometry.py:873-883; geometry fastkml/geometry.py:897-907. -/
def info_InnerBoundaryIs : ClsInfo Cls where
  mro := [.InnerBoundaryIs, .BoundaryIs, ._XMLObject]
  tag := (s% "innerBoundaryIs")
  nsid := (s% "kml")
  slots := [((s% "kml_geometry"), .raw)]
  kwargs := true
  bool := .geometry
  geom := .boundary
  special := .none

/-- `geometry.Polygon` (fastkml/geometry.py:949-1131); tag fastkml/base.py:266-276;
constructor fastkml/geometry.py:983-1054, fastkml/geometry.py:328-361, fastkml/kml_base.py:64-95, fastkml/base.py:62-88;
truth value fastkml/geometry.py:1056-1066; geometry fastkml/geometry.py:1069-1092. -/
def info_Polygon : ClsInfo Cls where
  mro := [.Polygon, ._Geometry, ._BaseObject, ._XMLObject]
  tag := (s% "Polygon")
  nsid := (s% "kml")
  slots := [((s% "outer_boundary"), .raw),
    ((s% "inner_boundaries"), .listOr),
    ((s% "extrude"), .raw),
    ((s% "tessellate"), .raw),
    ((s% "id"), .orEmpty),
    ((s% "target_id"), .orEmpty),
    ((s% "altitude_mode"), .raw)]
  kwargs := true
  bool := .allTruthy [(s% "outer_boundary")]
  geom := .polygon
  special := .none

/-- `geometry.MultiGeometry` (fastkml/geometry.py:1228-1341); tag fastkml/base.py:266-276;
constructor fastkml/geometry.py:1233-1317, fastkml/kml_base.py:64-95, fastkml/base.py:62-88;
truth value fastkml/geometry.py:1319-1321; geometry fastkml/geometry.py:1337-1341. -/
def info_MultiGeometry : ClsInfo Cls where
  mro := [.MultiGeometry, ._BaseObject, ._XMLObject]
  tag := (s% "MultiGeometry")
  nsid := (s% "kml")
  slots := [((s% "kml_geometries"), .listOr),
    ((s% "id"), .orEmpty),
    ((s% "target_id"), .orEmpty)]
  kwargs := true
  bool := .geometry
  geom := .multi
  special := .none

/-- `gx.Track` (fastkml/gx.py:184-371); tag fastkml/base.py:266-276;
constructor fastkml/gx.py:204-280, fastkml/geometry.py:328-361, fastkml/kml_base.py:64-95, fastkml/base.py:62-88;
truth value fastkml/gx.py:361-371; geometry fastkml/gx.py:306-316. -/
def info_Track : ClsInfo Cls where
  mro := [.Track, ._Geometry, ._BaseObject, ._XMLObject]
  tag := (s% "Track")
  nsid := (s% "gx")
  slots := [((s% "extended_data"), .raw),
    ((s% "id"), .orEmpty),
    ((s% "target_id"), .orEmpty),
    ((s% "altitude_mode"), .raw)]
  kwargs := true
  bool := .allTruthy [(s% "track_items")]
  geom := .track
  special := .track

/-- `gx.MultiTrack` (fastkml/gx.py:453-555); tag fastkml/base.py:266-276;
constructor fastkml/gx.py:474-516, fastkml/geometry.py:328-361, fastkml/kml_base.py:64-95, fastkml/base.py:62-88;
truth value fastkml/gx.py:545-555; geometry fastkml/gx.py:534-543. -/
def info_MultiTrack : ClsInfo Cls where
  mro := [.MultiTrack, ._Geometry, ._BaseObject, ._XMLObject]
  tag := (s% "MultiTrack")
  nsid := (s% "gx")
  slots := [((s% "tracks"), .listTruthy),
    ((s% "interpolate"), .raw),
    ((s% "id"), .orEmpty),
    ((s% "target_id"), .orEmpty),
    ((s% "altitude_mode"), .raw)]
  kwargs := true
  bool := .allTruthy [(s% "tracks")]
  geom := .multiTrack
  special := .none

/-- `model.Location` (fastkml/model.py:56-104); tag fastkml/base.py:266-276;
constructor fastkml/model.py:65-78, fastkml/base.py:62-88;
truth value fastkml/model.py:80-82; geometry fastkml/model.py:98-104. -/
def info_Location : ClsInfo Cls where
  mro := [.Location, ._XMLObject]
  tag := (s% "Location")
  nsid := (s% "kml")
  slots := [((s% "altitude"), .raw),
    ((s% "latitude"), .raw),
    ((s% "longitude"), .raw)]
  kwargs := true
  bool := .allNotNone [(s% "latitude"), (s% "longitude")]
  geom := .location
  special := .none

/-- `model.Orientation` (fastkml/model.py:143-184); tag fastkml/base.py:266-276;
constructor fastkml/model.py:152-165, fastkml/base.py:62-88;
truth value fastkml/model.py:167-171; geometry no `geometry`. -/
def info_Orientation : ClsInfo Cls where
  mro := [.Orientation, ._XMLObject]
  tag := (s% "Orientation")
  nsid := (s% "kml")
  slots := [((s% "heading"), .raw),
    ((s% "tilt"), .raw),
    ((s% "roll"), .raw)]
  kwargs := true
  bool := .anyNotNone [(s% "heading"), (s% "tilt"), (s% "roll")]
  geom := .none
  special := .none

/-- `model.Scale` (fastkml/model.py:225-264); tag fastkml/base.py:266-276;
constructor fastkml/model.py:234-247, fastkml/base.py:62-88;
truth value fastkml/model.py:249-251; geometry no `geometry`. -/
def info_Scale : ClsInfo Cls where
  mro := [.Scale, ._XMLObject]
  tag := (s% "Scale")
  nsid := (s% "kml")
  slots := [((s% "x"), .raw),
    ((s% "y"), .raw),
    ((s% "z"), .raw)]
  kwargs := true
  bool := .anyNotNone [(s% "x"), (s% "y"), (s% "z")]
  geom := .none
  special := .none

/-- `model.Alias` (fastkml/model.py:305-340); tag fastkml/base.py:266-276;
constructor fastkml/model.py:313-324, fastkml/base.py:62-88;
truth value fastkml/model.py:326-328; geometry no `geometry`. -/
def info_Alias : ClsInfo Cls where
  mro := [.Alias, ._XMLObject]
  tag := (s% "Alias")
  nsid := (s% "kml")
  slots := [((s% "target_href"), .clean),
    ((s% "source_href"), .clean)]
  kwargs := true
  bool := .anyNotNone [(s% "target_href"), (s% "source_href")]
  geom := .none
  special := .none

/-- `model.ResourceMap` (fastkml/model.py:367-398); tag fastkml/base.py:266-276;
constructor fastkml/model.py:374-383, fastkml/base.py:62-88;
truth value fastkml/model.py:385-387; geometry no `geometry`. -/
def info_ResourceMap : ClsInfo Cls where
  mro := [.ResourceMap, ._XMLObject]
  tag := (s% "ResourceMap")
  nsid := (s% "kml")
  slots := [((s% "aliases"), .listNotNone)]
  kwargs := true
  bool := .allTruthy [(s% "aliases")]
  geom := .none
  special := .none

/-- `model.Model` (fastkml/model.py:414-478); tag fastkml/base.py:266-276;
constructor fastkml/model.py:424-451, fastkml/kml_base.py:64-95, fastkml/base.py:62-88;
truth value fastkml/model.py:453-455; geometry fastkml/model.py:476-478. -/
def info_Model : ClsInfo Cls where
  mro := [.Model, ._BaseObject, ._XMLObject]
  tag := (s% "Model")
  nsid := (s% "kml")
  slots := [((s% "id"), .orEmpty),
    ((s% "target_id"), .orEmpty),
    ((s% "altitude_mode"), .raw),
    ((s% "location"), .raw),
    ((s% "orientation"), .raw),
    ((s% "scale"), .raw),
    ((s% "link"), .raw),
    ((s% "resource_map"), .raw)]
  kwargs := true
  bool := .allTruthy [(s% "link"), (s% "location")]
  geom := .model
  special := .none

/-- `features.Snippet` (fastkml/features.py:89-173); tag fastkml/base.py:266-276;
constructor fastkml/features.py:111-142, fastkml/base.py:62-88;
truth value fastkml/features.py:163-173; geometry no `geometry`. -/
def info_Snippet : ClsInfo Cls where
  mro := [.Snippet, ._XMLObject]
  tag := (s% "Snippet")
  nsid := (s% "kml")
  slots := [((s% "text"), .clean),
    ((s% "max_lines"), .raw)]
  kwargs := true
  bool := .allTruthy [(s% "text")]
  geom := .none
  special := .none

/-- `features._Feature` (fastkml/features.py:201-308); tag fastkml/base.py:266-276;
constructor fastkml/features.py:228-308, fastkml/kml_base.py:64-95, fastkml/base.py:62-88;
truth value no `__bool__`; geometry no `geometry`. -/
def info__Feature : ClsInfo Cls where
  mro := [._Feature, ._BaseObject, ._XMLObject]
  tag := (s% "_Feature")
  nsid := (s% "kml")
  slots := [((s% "id"), .orEmpty),
    ((s% "target_id"), .orEmpty),
    ((s% "name"), .clean),
    ((s% "description"), .clean),
    ((s% "style_url"), .raw),
    ((s% "styles"), .listOr),
    ((s% "view"), .raw),
    ((s% "visibility"), .raw),
    ((s% "isopen"), .raw),
    ((s% "snippet"), .raw),
    ((s% "atom_author"), .raw),
    ((s% "atom_link"), .raw),
    ((s% "address"), .clean),
    ((s% "phone_number"), .clean),
    ((s% "region"), .raw),
    ((s% "extended_data"), .raw),
    ((s% "times"), .raw)]
  kwargs := true
  bool := .always
  geom := .none
  special := .none

/-- `features.Placemark` (fastkml/features.py:489-661); tag fastkml/base.py:266-276;
constructor fastkml/features.py:500-613, fastkml/features.py:228-308, fastkml/kml_base.py:64-95, fastkml/base.py:62-88;
truth value no `__bool__`; geometry fastkml/features.py:651-661. -/
def info_Placemark : ClsInfo Cls where
  mro := [.Placemark, ._Feature, ._BaseObject, ._XMLObject]
  tag := (s% "Placemark")
  nsid := (s% "kml")
  slots := [((s% "id"), .orEmpty),
    ((s% "target_id"), .orEmpty),
    ((s% "name"), .clean),
    ((s% "description"), .clean),
    ((s% "style_url"), .raw),
    ((s% "styles"), .listOr),
    ((s% "view"), .raw),
    ((s% "visibility"), .raw),
    ((s% "isopen"), .raw),
    ((s% "snippet"), .raw),
    ((s% "atom_author"), .raw),
    ((s% "atom_link"), .raw),
    ((s% "address"), .clean),
    ((s% "phone_number"), .clean),
    ((s% "region"), .raw),
    ((s% "extended_data"), .raw),
    ((s% "times"), .raw),
    ((s% "kml_geometry"), .raw)]
  kwargs := true
  bool := .always
  geom := .placemark
  special := .placemark

/-- `features.NetworkLink` (fastkml/features.py:689-891); tag fastkml/base.py:266-276;
constructor fastkml/features.py:734-842, fastkml/features.py:228-308, fastkml/kml_base.py:64-95, fastkml/base.py:62-88;
truth value fastkml/features.py:881-891; geometry no `geometry`. -/
def info_NetworkLink : ClsInfo Cls where
  mro := [.NetworkLink, ._Feature, ._BaseObject, ._XMLObject]
  tag := (s% "NetworkLink")
  nsid := (s% "kml")
  slots := [((s% "id"), .orEmpty),
    ((s% "target_id"), .orEmpty),
    ((s% "name"), .clean),
    ((s% "description"), .clean),
    ((s% "style_url"), .raw),
    ((s% "styles"), .listOr),
    ((s% "view"), .raw),
    ((s% "visibility"), .raw),
    ((s% "isopen"), .raw),
    ((s% "snippet"), .raw),
    ((s% "atom_author"), .raw),
    ((s% "atom_link"), .raw),
    ((s% "address"), .clean),
    ((s% "phone_number"), .clean),
    ((s% "region"), .raw),
    ((s% "extended_data"), .raw),
    ((s% "times"), .raw),
    ((s% "refresh_visibility"), .raw),
    ((s% "fly_to_view"), .raw),
    ((s% "link"), .raw)]
  kwargs := true
  bool := .allTruthy [(s% "link")]
  geom := .none
  special := .none

/-- `overlays._Overlay` (fastkml/overlays.py:94-226); tag fastkml/base.py:266-276;
constructor fastkml/overlays.py:122-226, fastkml/features.py:228-308, fastkml/kml_base.py:64-95, fastkml/base.py:62-88;
truth value no `__bool__`; geometry no `geometry`. -/
def info__Overlay : ClsInfo Cls where
  mro := [._Overlay, ._Feature, ._BaseObject, ._XMLObject]
  tag := (s% "_Overlay")
  nsid := (s% "kml")
  slots := [((s% "id"), .orEmpty),
    ((s% "target_id"), .orEmpty),
    ((s% "name"), .clean),
    ((s% "description"), .clean),
    ((s% "style_url"), .raw),
    ((s% "styles"), .listOr),
    ((s% "view"), .raw),
    ((s% "visibility"), .raw),
    ((s% "isopen"), .raw),
    ((s% "snippet"), .raw),
    ((s% "atom_author"), .raw),
    ((s% "atom_link"), .raw),
    ((s% "address"), .clean),
    ((s% "phone_number"), .clean),
    ((s% "region"), .raw),
    ((s% "extended_data"), .raw),
    ((s% "times"), .raw),
    ((s% "icon"), .raw),
    ((s% "color"), .clean),
    ((s% "draw_order"), .raw)]
  kwargs := false
  bool := .always
  geom := .none
  special := .none

/-- `overlays.ViewVolume` (fastkml/overlays.py:266-377); tag fastkml/base.py:266-276;
constructor fastkml/overlays.py:300-343, fastkml/base.py:62-88;
truth value fastkml/overlays.py:360-377; geometry no `geometry`. -/
def info_ViewVolume : ClsInfo Cls where
  mro := [.ViewVolume, ._XMLObject]
  tag := (s% "ViewVolume")
  nsid := (s% "kml")
  slots := [((s% "left_fov"), .raw),
    ((s% "right_fov"), .raw),
    ((s% "bottom_fov"), .raw),
    ((s% "top_fov"), .raw),
    ((s% "near"), .raw)]
  kwargs := true
  bool := .allNotNone [(s% "left_fov"), (s% "right_fov"), (s% "bottom_fov"), (s% "top_fov"), (s% "near")]
  geom := .none
  special := .none

/-- `overlays.ImagePyramid` (fastkml/overlays.py:442-547); tag fastkml/base.py:266-276;
constructor fastkml/overlays.py:483-522, fastkml/base.py:62-88;
truth value fastkml/overlays.py:538-547; geometry no `geometry`. -/
def info_ImagePyramid : ClsInfo Cls where
  mro := [.ImagePyramid, ._XMLObject]
  tag := (s% "ImagePyramid")
  nsid := (s% "kml")
  slots := [((s% "tile_size"), .raw),
    ((s% "max_width"), .raw),
    ((s% "max_height"), .raw),
    ((s% "grid_origin"), .raw)]
  kwargs := true
  bool := .allNotNone [(s% "max_width"), (s% "max_height")]
  geom := .none
  special := .none

/-- `overlays.PhotoOverlay` (fastkml/overlays.py:598-818); tag fastkml/base.py:266-276;
constructor fastkml/overlays.py:655-783, fastkml/overlays.py:122-226, fastkml/features.py:228-308, fastkml/kml_base.py:64-95, fastkml/base.py:62-88;
truth value no `__bool__`; geometry no `geometry`. -/
def info_PhotoOverlay : ClsInfo Cls where
  mro := [.PhotoOverlay, ._Overlay, ._Feature, ._BaseObject, ._XMLObject]
  tag := (s% "PhotoOverlay")
  nsid := (s% "kml")
  slots := [((s% "id"), .orEmpty),
    ((s% "target_id"), .orEmpty),
    ((s% "name"), .clean),
    ((s% "description"), .clean),
    ((s% "style_url"), .raw),
    ((s% "styles"), .listOr),
    ((s% "view"), .raw),
    ((s% "visibility"), .raw),
    ((s% "isopen"), .raw),
    ((s% "snippet"), .raw),
    ((s% "atom_author"), .raw),
    ((s% "atom_link"), .raw),
    ((s% "address"), .clean),
    ((s% "phone_number"), .clean),
    ((s% "region"), .raw),
    ((s% "extended_data"), .raw),
    ((s% "times"), .raw),
    ((s% "icon"), .raw),
    ((s% "color"), .clean),
    ((s% "draw_order"), .raw),
    ((s% "rotation"), .raw),
    ((s% "view_volume"), .raw),
    ((s% "image_pyramid"), .raw),
    ((s% "point"), .raw),
    ((s% "shape"), .raw)]
  kwargs := false
  bool := .always
  geom := .none
  special := .none

/-- `overlays.LatLonBox` (fastkml/overlays.py:880-989); tag fastkml/base.py:266-276;
constructor fastkml/overlays.py:913-956, fastkml/base.py:62-88;
truth value fastkml/overlays.py:973-989; geometry no `geometry`. -/
def info_LatLonBox : ClsInfo Cls where
  mro := [.LatLonBox, ._XMLObject]
  tag := (s% "LatLonBox")
  nsid := (s% "kml")
  slots := [((s% "north"), .raw),
    ((s% "south"), .raw),
    ((s% "east"), .raw),
    ((s% "west"), .raw),
    ((s% "rotation"), .raw)]
  kwargs := true
  bool := .allNotNone [(s% "north"), (s% "south"), (s% "east"), (s% "west")]
  geom := .none
  special := .none

/-- `overlays.GroundOverlay` (fastkml/overlays.py:1050-1238); tag fastkml/base.py:266-276;
constructor fastkml/overlays.py:1085-1205, fastkml/overlays.py:122-226, fastkml/features.py:228-308, fastkml/kml_base.py:64-95, fastkml/base.py:62-88;
truth value no `__bool__`; geometry no `geometry`. -/
def info_GroundOverlay : ClsInfo Cls where
  mro := [.GroundOverlay, ._Overlay, ._Feature, ._BaseObject, ._XMLObject]
  tag := (s% "GroundOverlay")
  nsid := (s% "kml")
  slots := [((s% "id"), .orEmpty),
    ((s% "target_id"), .orEmpty),
    ((s% "name"), .clean),
    ((s% "description"), .clean),
    ((s% "style_url"), .raw),
    ((s% "styles"), .listOr),
    ((s% "view"), .raw),
    ((s% "visibility"), .raw),
    ((s% "isopen"), .raw),
    ((s% "snippet"), .raw),
    ((s% "atom_author"), .raw),
    ((s% "atom_link"), .raw),
    ((s% "address"), .clean),
    ((s% "phone_number"), .clean),
    ((s% "region"), .raw),
    ((s% "extended_data"), .raw),
    ((s% "times"), .raw),
    ((s% "icon"), .raw),
    ((s% "color"), .clean),
    ((s% "draw_order"), .raw),
    ((s% "altitude"), .raw),
    ((s% "altitude_mode"), .raw),
    ((s% "lat_lon_box"), .raw)]
  kwargs := false
  bool := .always
  geom := .none
  special := .none

/-- `overlays._XY` (fastkml/overlays.py:1278-1349); tag fastkml/base.py:266-276;
constructor fastkml/overlays.py:1289-1324, fastkml/base.py:62-88;
truth value fastkml/overlays.py:1340-1349; geometry no `geometry`. -/
def info__XY : ClsInfo Cls where
  mro := [._XY, ._XMLObject]
  tag := (s% "_XY")
  nsid := (s% "kml")
  slots := [((s% "x"), .raw),
    ((s% "y"), .raw),
    ((s% "x_units"), .raw),
    ((s% "y_units"), .raw)]
  kwargs := true
  bool := .allNotNone [(s% "x"), (s% "y")]
  geom := .none
  special := .none

/-- `overlays.OverlayXY` (fastkml/overlays.py:1400-1406); tag fastkml/overlays.py:1404-1406;
constructor fastkml/overlays.py:1289-1324, fastkml/base.py:62-88;
truth value fastkml/overlays.py:1340-1349; geometry no `geometry`. -/
def info_OverlayXY : ClsInfo Cls where
  mro := [.OverlayXY, ._XY, ._XMLObject]
  tag := (s% "overlayXY")
  nsid := (s% "kml")
  slots := [((s% "x"), .raw),
    ((s% "y"), .raw),
    ((s% "x_units"), .raw),
    ((s% "y_units"), .raw)]
  kwargs := true
  bool := .allNotNone [(s% "x"), (s% "y")]
  geom := .none
  special := .none

/-- `overlays.ScreenXY` (fastkml/overlays.py:1409-1415); tag fastkml/overlays.py:1413-1415;
constructor fastkml/overlays.py:1289-1324, fastkml/base.py:62-88;
truth value fastkml/overlays.py:1340-1349; geometry no `geometry`. -/
def info_ScreenXY : ClsInfo Cls where
  mro := [.ScreenXY, ._XY, ._XMLObject]
  tag := (s% "screenXY")
  nsid := (s% "kml")
  slots := [((s% "x"), .raw),
    ((s% "y"), .raw),
    ((s% "x_units"), .raw),
    ((s% "y_units"), .raw)]
  kwargs := true
  bool := .allNotNone [(s% "x"), (s% "y")]
  geom := .none
  special := .none

/-- `overlays.RotationXY` (fastkml/overlays.py:1418-1424); tag fastkml/overlays.py:1422-1424;
constructor fastkml/overlays.py:1289-1324, fastkml/base.py:62-88;
truth value fastkml/overlays.py:1340-1349; geometry no `geometry`. -/
def info_RotationXY : ClsInfo Cls where
  mro := [.RotationXY, ._XY, ._XMLObject]
  tag := (s% "rotationXY")
  nsid := (s% "kml")
  slots := [((s% "x"), .raw),
    ((s% "y"), .raw),
    ((s% "x_units"), .raw),
    ((s% "y_units"), .raw)]
  kwargs := true
  bool := .allNotNone [(s% "x"), (s% "y")]
  geom := .none
  special := .none

/-- `overlays.Size` (fastkml/overlays.py:1427-1433); tag fastkml/overlays.py:1431-1433;
constructor fastkml/overlays.py:1289-1324, fastkml/base.py:62-88;
truth value fastkml/overlays.py:1340-1349; geometry no `geometry`. -/
def info_Size : ClsInfo Cls where
  mro := [.Size, ._XY, ._XMLObject]
  tag := (s% "size")
  nsid := (s% "kml")
  slots := [((s% "x"), .raw),
    ((s% "y"), .raw),
    ((s% "x_units"), .raw),
    ((s% "y_units"), .raw)]
  kwargs := true
  bool := .allNotNone [(s% "x"), (s% "y")]
  geom := .none
  special := .none

/-- `overlays.ScreenOverlay` (fastkml/overlays.py:1436-1619); tag fastkml/base.py:266-276;
constructor fastkml/overlays.py:1450-1584, fastkml/overlays.py:122-226, fastkml/features.py:228-308, fastkml/kml_base.py:64-95, fastkml/base.py:62-88;
truth value no `__bool__`; geometry no `geometry`. -/
def info_ScreenOverlay : ClsInfo Cls where
  mro := [.ScreenOverlay, ._Overlay, ._Feature, ._BaseObject, ._XMLObject]
  tag := (s% "ScreenOverlay")
  nsid := (s% "kml")
  slots := [((s% "id"), .orEmpty),
    ((s% "target_id"), .orEmpty),
    ((s% "name"), .clean),
    ((s% "description"), .clean),
    ((s% "style_url"), .raw),
    ((s% "styles"), .listOr),
    ((s% "view"), .raw),
    ((s% "visibility"), .raw),
    ((s% "isopen"), .raw),
    ((s% "snippet"), .raw),
    ((s% "atom_author"), .raw),
    ((s% "atom_link"), .raw),
    ((s% "address"), .clean),
    ((s% "phone_number"), .clean),
    ((s% "region"), .raw),
    ((s% "extended_data"), .raw),
    ((s% "times"), .raw),
    ((s% "icon"), .raw),
    ((s% "color"), .clean),
    ((s% "draw_order"), .raw),
    ((s% "overlay_xy"), .raw),
    ((s% "screen_xy"), .raw),
    ((s% "rotation_xy"), .raw),
    ((s% "size"), .raw),
    ((s% "rotation"), .raw)]
  kwargs := false
  bool := .always
  geom := .none
  special := .none

/-- `containers._Container` (fastkml/containers.py:72-167); tag fastkml/base.py:266-276;
constructor fastkml/containers.py:84-131, fastkml/features.py:228-308, fastkml/kml_base.py:64-95, fastkml/base.py:62-88;
truth value no `__bool__`; geometry no `geometry`. -/
def info__Container : ClsInfo Cls where
  mro := [._Container, ._Feature, ._BaseObject, ._XMLObject]
  tag := (s% "_Container")
  nsid := (s% "kml")
  slots := [((s% "id"), .orEmpty),
    ((s% "target_id"), .orEmpty),
    ((s% "name"), .clean),
    ((s% "description"), .clean),
    ((s% "style_url"), .raw),
    ((s% "styles"), .listOr),
    ((s% "view"), .raw),
    ((s% "visibility"), .raw),
    ((s% "isopen"), .raw),
    ((s% "snippet"), .raw),
    ((s% "atom_author"), .raw),
    ((s% "atom_link"), .raw),
    ((s% "address"), .clean),
    ((s% "phone_number"), .clean),
    ((s% "region"), .raw),
    ((s% "extended_data"), .raw),
    ((s% "times"), .raw),
    ((s% "features"), .listOr)]
  kwargs := true
  bool := .always
  geom := .none
  special := .none

/-- `containers.Folder` (fastkml/containers.py:170-177); tag fastkml/base.py:266-276;
constructor fastkml/containers.py:84-131, fastkml/features.py:228-308, fastkml/kml_base.py:64-95, fastkml/base.py:62-88;
truth value no `__bool__`; geometry no `geometry`. -/
def info_Folder : ClsInfo Cls where
  mro := [.Folder, ._Container, ._Feature, ._BaseObject, ._XMLObject]
  tag := (s% "Folder")
  nsid := (s% "kml")
  slots := [((s% "id"), .orEmpty),
    ((s% "target_id"), .orEmpty),
    ((s% "name"), .clean),
    ((s% "description"), .clean),
    ((s% "style_url"), .raw),
    ((s% "styles"), .listOr),
    ((s% "view"), .raw),
    ((s% "visibility"), .raw),
    ((s% "isopen"), .raw),
    ((s% "snippet"), .raw),
    ((s% "atom_author"), .raw),
    ((s% "atom_link"), .raw),
    ((s% "address"), .clean),
    ((s% "phone_number"), .clean),
    ((s% "region"), .raw),
    ((s% "extended_data"), .raw),
    ((s% "times"), .raw),
    ((s% "features"), .listOr)]
  kwargs := true
  bool := .always
  geom := .none
  special := .none

/-- `containers.Document` (fastkml/containers.py:180-326); tag fastkml/base.py:266-276;
constructor fastkml/containers.py:190-272, fastkml/containers.py:84-131, fastkml/features.py:228-308, fastkml/kml_base.py:64-95, fastkml/base.py:62-88;
truth value no `__bool__`; geometry no `geometry`. -/
def info_Document : ClsInfo Cls where
  mro := [.Document, ._Container, ._Feature, ._BaseObject, ._XMLObject]
  tag := (s% "Document")
  nsid := (s% "kml")
  slots := [((s% "id"), .orEmpty),
    ((s% "target_id"), .orEmpty),
    ((s% "name"), .clean),
    ((s% "description"), .clean),
    ((s% "style_url"), .raw),
    ((s% "styles"), .listOr),
    ((s% "view"), .raw),
    ((s% "visibility"), .raw),
    ((s% "isopen"), .raw),
    ((s% "snippet"), .raw),
    ((s% "atom_author"), .raw),
    ((s% "atom_link"), .raw),
    ((s% "address"), .clean),
    ((s% "phone_number"), .clean),
    ((s% "region"), .raw),
    ((s% "extended_data"), .raw),
    ((s% "times"), .raw),
    ((s% "features"), .listOr),
    ((s% "schemata"), .listOr)]
  kwargs := true
  bool := .always
  geom := .none
  special := .none

/-- `network_link_control.NetworkLinkControl` (fastkml/network_link_control.py:54-155); tag fastkml/base.py:266-276;
constructor fastkml/network_link_control.py:69-129, fastkml/base.py:62-88;
truth value no `__bool__`; geometry no `geometry`. -/
def info_NetworkLinkControl : ClsInfo Cls where
  mro := [.NetworkLinkControl, ._XMLObject]
  tag := (s% "NetworkLinkControl")
  nsid := (s% "kml")
  slots := [((s% "min_refresh_period"), .raw),
    ((s% "max_session_length"), .raw),
    ((s% "cookie"), .clean),
    ((s% "message"), .clean),
    ((s% "link_name"), .clean),
    ((s% "link_description"), .clean),
    ((s% "link_snippet"), .clean),
    ((s% "expires"), .raw),
    ((s% "view"), .raw)]
  kwargs := true
  bool := .always
  geom := .none
  special := .none

/-- `kml.KML` (fastkml/kml.py:111-290); tag fastkml/kml.py:151-153;
constructor fastkml/kml.py:119-137, fastkml/base.py:62-88;
truth value no `__bool__`; geometry no `geometry`. -/
def info_KML : ClsInfo Cls where
  mro := [.KML, ._XMLObject]
  tag := (s% "kml")
  nsid := (s% "kml")
  slots := [((s% "features"), .listNotNone)]
  kwargs := true
  bool := .always
  geom := .none
  special := .kml

/-- The behaviour of every class. -/
def clsInfo : Cls → ClsInfo Cls
  | ._XMLObject => info__XMLObject
  | ._BaseObject => info__BaseObject
  | ._AtomObject => info__AtomObject
  | .atom_Link => info_atom_Link
  | ._Person => info__Person
  | .Author => info_Author
  | .Contributor => info_Contributor
  | ._TimePrimitive => info__TimePrimitive
  | .TimeStamp => info_TimeStamp
  | .TimeSpan => info_TimeSpan
  | ._AbstractView => info__AbstractView
  | .Camera => info_Camera
  | .LookAt => info_LookAt
  | .LatLonAltBox => info_LatLonAltBox
  | .Lod => info_Lod
  | .Region => info_Region
  | .Link => info_Link
  | .Icon => info_Icon
  | .StyleUrl => info_StyleUrl
  | ._StyleSelector => info__StyleSelector
  | ._ColorStyle => info__ColorStyle
  | .HotSpot => info_HotSpot
  | .IconStyle => info_IconStyle
  | .LineStyle => info_LineStyle
  | .PolyStyle => info_PolyStyle
  | .LabelStyle => info_LabelStyle
  | .BalloonStyle => info_BalloonStyle
  | .Style => info_Style
  | .Pair => info_Pair
  | .StyleMap => info_StyleMap
  | .SimpleField => info_SimpleField
  | .Schema => info_Schema
  | .Data => info_Data
  | .SimpleData => info_SimpleData
  | .SchemaData => info_SchemaData
  | .ExtendedData => info_ExtendedData
  | .Coordinates => info_Coordinates
  | ._Geometry => info__Geometry
  | .Point => info_Point
  | .LineString => info_LineString
  | .LinearRing => info_LinearRing
  | .BoundaryIs => info_BoundaryIs
  | .OuterBoundaryIs => info_OuterBoundaryIs
  | .InnerBoundaryIs => info_InnerBoundaryIs
  | .Polygon => info_Polygon
  | .MultiGeometry => info_MultiGeometry
  | .Track => info_Track
  | .MultiTrack => info_MultiTrack
  | .Location => info_Location
  | .Orientation => info_Orientation
  | .Scale => info_Scale
  | .Alias => info_Alias
  | .ResourceMap => info_ResourceMap
  | .Model => info_Model
  | .Snippet => info_Snippet
  | ._Feature => info__Feature
  | .Placemark => info_Placemark
  | .NetworkLink => info_NetworkLink
  | ._Overlay => info__Overlay
  | .ViewVolume => info_ViewVolume
  | .ImagePyramid => info_ImagePyramid
  | .PhotoOverlay => info_PhotoOverlay
  | .LatLonBox => info_LatLonBox
  | .GroundOverlay => info_GroundOverlay
  | ._XY => info__XY
  | .OverlayXY => info_OverlayXY
  | .ScreenXY => info_ScreenXY
  | .RotationXY => info_RotationXY
  | .Size => info_Size
  | .ScreenOverlay => info_ScreenOverlay
  | ._Container => info__Container
  | .Folder => info_Folder
  | .Document => info_Document
  | .NetworkLinkControl => info_NetworkLinkControl
  | .KML => info_KML

/-- The registrations for `kml_base._BaseObject`, in order (fastkml/kml_base.py:117-139). -/
def items__BaseObject : List (Item Cls) := [
  -- fastkml/kml_base.py:117-127
  ⟨[(s% ""), (s% "kml")], [.str], (s% "id"), .attrText, .attrText, (s% "id"), .none⟩,
  -- fastkml/kml_base.py:129-139
  ⟨[(s% ""), (s% "kml")], [.str], (s% "target_id"), .attrText, .attrText, (s% "targetId"), .none⟩]

/-- The registrations for `atom.Link`, in order (fastkml/atom.py:181-247). -/
def items_atom_Link : List (Item Cls) := [
  -- fastkml/atom.py:181-191
  ⟨[(s% ""), (s% "atom")], [.str], (s% "href"), .attrText, .attrText, (s% "href"), .none⟩,
  -- fastkml/atom.py:192-202
  ⟨[(s% ""), (s% "atom")], [.str], (s% "rel"), .attrText, .attrText, (s% "rel"), .none⟩,
  -- fastkml/atom.py:203-213
  ⟨[(s% ""), (s% "atom")], [.str], (s% "type"), .attrText, .attrText, (s% "type"), .none⟩,
  -- fastkml/atom.py:214-224
  ⟨[(s% ""), (s% "atom")], [.str], (s% "hreflang"), .attrText, .attrText, (s% "hreflang"), .none⟩,
  -- fastkml/atom.py:226-236
  ⟨[(s% ""), (s% "atom")], [.str], (s% "title"), .attrText, .attrText, (s% "title"), .none⟩,
  -- fastkml/atom.py:237-247
  ⟨[(s% ""), (s% "atom")], [.int], (s% "length"), .attrInt, .attrInt, (s% "length"), .none⟩]

/-- The registrations for `atom._Person`, in order (fastkml/atom.py:325-357). -/
def items__Person : List (Item Cls) := [
  -- fastkml/atom.py:325-335
  ⟨[(s% "atom")], [.str], (s% "name"), .subText, .subText, (s% "name"), .none⟩,
  -- fastkml/atom.py:336-346
  ⟨[(s% "atom")], [.str], (s% "uri"), .subText, .subText, (s% "uri"), .none⟩,
  -- fastkml/atom.py:347-357
  ⟨[(s% "atom")], [.str], (s% "email"), .subText, .subText, (s% "email"), .none⟩]

/-- The registrations for `times.TimeStamp`, in order (fastkml/times.py:296-306). -/
def items_TimeStamp : List (Item Cls) := [
  -- fastkml/times.py:296-306
  ⟨[(s% "kml"), (s% "gx"), (s% "")], [.kmlDateTime], (s% "timestamp"), .subDt, .subDt, (s% "when"), .none⟩]

/-- The registrations for `times.TimeSpan`, in order (fastkml/times.py:374-395). -/
def items_TimeSpan : List (Item Cls) := [
  -- fastkml/times.py:374-384
  ⟨[(s% "kml"), (s% "gx"), (s% "")], [.kmlDateTime], (s% "begin"), .subDt, .subDt, (s% "begin"), .none⟩,
  -- fastkml/times.py:385-395
  ⟨[(s% "kml"), (s% "gx"), (s% "")], [.kmlDateTime], (s% "end"), .subDt, .subDt, (s% "end"), .none⟩]

/-- The registrations for `views._AbstractView`, in order (fastkml/views.py:153-212). -/
def items__AbstractView : List (Item Cls) := [
  -- fastkml/views.py:153-164
  ⟨[(s% "kml"), (s% "")], [.float], (s% "longitude"), .subFloat, .subFloat, (s% "longitude"), .float (0) 0⟩,
  -- fastkml/views.py:165-176
  ⟨[(s% "kml"), (s% "")], [.float], (s% "latitude"), .subFloat, .subFloat, (s% "latitude"), .float (0) 0⟩,
  -- fastkml/views.py:177-188
  ⟨[(s% "kml"), (s% "")], [.float], (s% "altitude"), .subFloat, .subFloat, (s% "altitude"), .float (0) 0⟩,
  -- fastkml/views.py:189-200
  ⟨[(s% "kml"), (s% "")], [.float], (s% "heading"), .subFloat, .subFloat, (s% "heading"), .float (0) 0⟩,
  -- fastkml/views.py:201-212
  ⟨[(s% "kml"), (s% "")], [.float], (s% "tilt"), .subFloat, .subFloat, (s% "tilt"), .float (0) 0⟩]

/-- The registrations for `views.Camera`, in order (fastkml/views.py:317-340). -/
def items_Camera : List (Item Cls) := [
  -- fastkml/views.py:317-328
  ⟨[(s% "kml"), (s% "")], [.float], (s% "roll"), .subFloat, .subFloat, (s% "roll"), .float (0) 0⟩,
  -- fastkml/views.py:329-340
  ⟨[(s% "kml"), (s% "gx"), (s% "")], [.enum .altitudeMode], (s% "altitude_mode"), .subEnum, .subEnum, (s% "altitudeMode"), .enum .altitudeMode (s% "clampToGround")⟩]

/-- The registrations for `views.LookAt`, in order (fastkml/views.py:432-454). -/
def items_LookAt : List (Item Cls) := [
  -- fastkml/views.py:432-442
  ⟨[(s% "kml"), (s% "")], [.float], (s% "range"), .subFloat, .subFloat, (s% "range"), .none⟩,
  -- fastkml/views.py:443-454
  ⟨[(s% "kml"), (s% "gx"), (s% "")], [.enum .altitudeMode], (s% "altitude_mode"), .subEnum, .subEnum, (s% "altitudeMode"), .enum .altitudeMode (s% "clampToGround")⟩]

/-- The registrations for `views.LatLonAltBox`, in order (fastkml/views.py:554-633). -/
def items_LatLonAltBox : List (Item Cls) := [
  -- fastkml/views.py:554-564
  ⟨[(s% "kml"), (s% "")], [.float], (s% "north"), .subFloat, .subFloat, (s% "north"), .none⟩,
  -- fastkml/views.py:565-575
  ⟨[(s% "kml"), (s% "")], [.float], (s% "south"), .subFloat, .subFloat, (s% "south"), .none⟩,
  -- fastkml/views.py:576-586
  ⟨[(s% "kml"), (s% "")], [.float], (s% "east"), .subFloat, .subFloat, (s% "east"), .none⟩,
  -- fastkml/views.py:587-597
  ⟨[(s% "kml"), (s% "")], [.float], (s% "west"), .subFloat, .subFloat, (s% "west"), .none⟩,
  -- fastkml/views.py:598-609
  ⟨[(s% "kml"), (s% "")], [.float], (s% "min_altitude"), .subFloat, .subFloat, (s% "minAltitude"), .float (0) 0⟩,
  -- fastkml/views.py:610-621
  ⟨[(s% "kml"), (s% "")], [.float], (s% "max_altitude"), .subFloat, .subFloat, (s% "maxAltitude"), .float (0) 0⟩,
  -- fastkml/views.py:622-633
  ⟨[(s% "kml"), (s% "gx"), (s% "")], [.enum .altitudeMode], (s% "altitude_mode"), .subEnum, .subEnum, (s% "altitudeMode"), .enum .altitudeMode (s% "clampToGround")⟩]

/-- The registrations for `views.Lod`, in order (fastkml/views.py:716-763). -/
def items_Lod : List (Item Cls) := [
  -- fastkml/views.py:716-727
  ⟨[(s% "kml"), (s% "")], [.float], (s% "min_lod_pixels"), .subInt, .subInt, (s% "minLodPixels"), .int (256)⟩,
  -- fastkml/views.py:728-739
  ⟨[(s% "kml"), (s% "")], [.float], (s% "max_lod_pixels"), .subInt, .subInt, (s% "maxLodPixels"), .int (-1)⟩,
  -- fastkml/views.py:740-751
  ⟨[(s% "kml"), (s% "")], [.float], (s% "min_fade_extent"), .subInt, .subInt, (s% "minFadeExtent"), .int (0)⟩,
  -- fastkml/views.py:752-763
  ⟨[(s% "kml"), (s% "")], [.float], (s% "max_fade_extent"), .subInt, .subInt, (s% "maxFadeExtent"), .int (0)⟩]

/-- The registrations for `views.Region`, in order (fastkml/views.py:852-873). -/
def items_Region : List (Item Cls) := [
  -- fastkml/views.py:852-862
  ⟨[(s% "kml"), (s% "")], [.cls .LatLonAltBox], (s% "lat_lon_alt_box"), .xmlSub, .xmlSub, (s% "LatLonAltBox"), .none⟩,
  -- fastkml/views.py:863-873
  ⟨[(s% "kml"), (s% "")], [.cls .Lod], (s% "lod"), .xmlSub, .xmlSub, (s% "Lod"), .none⟩]

/-- The registrations for `links.Link`, in order (fastkml/links.py:126-219). -/
def items_Link : List (Item Cls) := [
  -- fastkml/links.py:126-136
  ⟨[(s% "kml"), (s% "")], [.str], (s% "href"), .subText, .subText, (s% "href"), .none⟩,
  -- fastkml/links.py:137-148
  ⟨[(s% "kml"), (s% "")], [.enum .refreshMode], (s% "refresh_mode"), .subEnum, .subEnum, (s% "refreshMode"), .enum .refreshMode (s% "onChange")⟩,
  -- fastkml/links.py:149-160
  ⟨[(s% "kml"), (s% "")], [.float], (s% "refresh_interval"), .subFloat, .subFloat, (s% "refreshInterval"), .float (4) 0⟩,
  -- fastkml/links.py:161-172
  ⟨[(s% "kml"), (s% "")], [.enum .viewRefreshMode], (s% "view_refresh_mode"), .subEnum, .subEnum, (s% "viewRefreshMode"), .enum .viewRefreshMode (s% "never")⟩,
  -- fastkml/links.py:173-184
  ⟨[(s% "kml"), (s% "")], [.float], (s% "view_refresh_time"), .subFloat, .subFloat, (s% "viewRefreshTime"), .float (4) 0⟩,
  -- fastkml/links.py:185-196
  ⟨[(s% "kml"), (s% "")], [.float], (s% "view_bound_scale"), .subFloat, .subFloat, (s% "viewBoundScale"), .float (1) 0⟩,
  -- fastkml/links.py:197-208
  ⟨[(s% "kml"), (s% "")], [.str], (s% "view_format"), .subText, .subText, (s% "viewFormat"), .str (s% "BBOX=[bboxWest],[bboxSouth],[bboxEast],[bboxNorth]")⟩,
  -- fastkml/links.py:209-219
  ⟨[(s% "kml"), (s% "")], [.str], (s% "http_query"), .subText, .subText, (s% "httpQuery"), .none⟩]

/-- The registrations for `styles.StyleUrl`, in order (fastkml/styles.py:156-166). -/
def items_StyleUrl : List (Item Cls) := [
  -- fastkml/styles.py:156-166
  ⟨[(s% "kml"), (s% "")], [.str], (s% "url"), .nodeText, .nodeText, (s% "styleUrl"), .none⟩]

/-- The registrations for `styles._ColorStyle`, in order (fastkml/styles.py:242-265). -/
def items__ColorStyle : List (Item Cls) := [
  -- fastkml/styles.py:242-253
  ⟨[(s% "kml"), (s% "")], [.str], (s% "color"), .subText, .subText, (s% "color"), .str (s% "ffffffff")⟩,
  -- fastkml/styles.py:254-265
  ⟨[(s% "kml"), (s% "")], [.enum .colorMode], (s% "color_mode"), .subEnum, .subEnum, (s% "colorMode"), .enum .colorMode (s% "normal")⟩]

/-- The registrations for `styles.HotSpot`, in order (fastkml/styles.py:358-405). -/
def items_HotSpot : List (Item Cls) := [
  -- fastkml/styles.py:358-369
  ⟨[(s% ""), (s% "kml")], [.float], (s% "x"), .attrFloat, .attrFloat, (s% "x"), .float (5) 1⟩,
  -- fastkml/styles.py:370-381
  ⟨[(s% ""), (s% "kml")], [.float], (s% "y"), .attrFloat, .attrFloat, (s% "y"), .float (5) 1⟩,
  -- fastkml/styles.py:382-393
  ⟨[(s% ""), (s% "kml")], [.enum .units], (s% "xunits"), .attrEnum, .attrEnum, (s% "xunits"), .enum .units (s% "fraction")⟩,
  -- fastkml/styles.py:394-405
  ⟨[(s% ""), (s% "kml")], [.enum .units], (s% "yunits"), .attrEnum, .attrEnum, (s% "yunits"), .enum .units (s% "fraction")⟩]

/-- The registrations for `styles.IconStyle`, in order (fastkml/styles.py:526-571). -/
def items_IconStyle : List (Item Cls) := [
  -- fastkml/styles.py:526-537
  ⟨[(s% "kml"), (s% "")], [.float], (s% "scale"), .subFloat, .subFloat, (s% "scale"), .float (1) 0⟩,
  -- fastkml/styles.py:538-549
  ⟨[(s% "kml"), (s% "")], [.float], (s% "heading"), .subFloat, .subFloat, (s% "heading"), .float (0) 0⟩,
  -- fastkml/styles.py:550-560
  ⟨[(s% "kml"), (s% "")], [.cls .Icon], (s% "icon"), .xmlSub, .xmlSub, (s% "Icon"), .none⟩,
  -- fastkml/styles.py:561-571
  ⟨[(s% "kml"), (s% "")], [.cls .HotSpot], (s% "hot_spot"), .xmlSub, .xmlSub, (s% "hotSpot"), .none⟩]

/-- The registrations for `styles.LineStyle`, in order (fastkml/styles.py:659-670). -/
def items_LineStyle : List (Item Cls) := [
  -- fastkml/styles.py:659-670
  ⟨[(s% "kml"), (s% "")], [.float], (s% "width"), .subFloat, .subFloat, (s% "width"), .float (1) 0⟩]

/-- The registrations for `styles.PolyStyle`, in order (fastkml/styles.py:768-791). -/
def items_PolyStyle : List (Item Cls) := [
  -- fastkml/styles.py:768-779
  ⟨[(s% "kml"), (s% "")], [.bool], (s% "fill"), .subBool, .subBool, (s% "fill"), .bool true⟩,
  -- fastkml/styles.py:780-791
  ⟨[(s% "kml"), (s% "")], [.bool], (s% "outline"), .subBool, .subBool, (s% "outline"), .bool true⟩]

/-- The registrations for `styles.LabelStyle`, in order (fastkml/styles.py:882-893). -/
def items_LabelStyle : List (Item Cls) := [
  -- fastkml/styles.py:882-893
  ⟨[(s% "kml"), (s% "")], [.float], (s% "scale"), .subFloat, .subFloat, (s% "scale"), .float (1) 0⟩]

/-- The registrations for `styles.BalloonStyle`, in order (fastkml/styles.py:1034-1080). -/
def items_BalloonStyle : List (Item Cls) := [
  -- fastkml/styles.py:1034-1045
  ⟨[(s% "kml"), (s% "")], [.str], (s% "bg_color"), .subText, .subText, (s% "bgColor"), .str (s% "ffffffff")⟩,
  -- fastkml/styles.py:1046-1057
  ⟨[(s% "kml"), (s% "")], [.str], (s% "text_color"), .subText, .subText, (s% "textColor"), .str (s% "ff000000")⟩,
  -- fastkml/styles.py:1058-1068
  ⟨[(s% "kml"), (s% "")], [.str], (s% "text"), .subText, .subText, (s% "text"), .none⟩,
  -- fastkml/styles.py:1069-1080
  ⟨[(s% "kml"), (s% "")], [.enum .displayMode], (s% "display_mode"), .subEnum, .subEnum, (s% "displayMode"), .enum .displayMode (s% "default")⟩]

/-- The registrations for `styles.Style`, in order (fastkml/styles.py:1161-1177). -/
def items_Style : List (Item Cls) := [
  -- fastkml/styles.py:1161-1177
  ⟨[(s% "kml"), (s% "")], [.cls .IconStyle, .cls .LabelStyle, .cls .LineStyle, .cls .PolyStyle, .cls .BalloonStyle], (s% "styles"), .xmlSubList, .xmlSubList, (s% "Style"), .none⟩]

/-- The registrations for `styles.Pair`, in order (fastkml/styles.py:1271-1295). -/
def items_Pair : List (Item Cls) := [
  -- fastkml/styles.py:1271-1281
  ⟨[(s% "kml"), (s% "")], [.enum .pairKey], (s% "key"), .subEnum, .subEnum, (s% "key"), .none⟩,
  -- fastkml/styles.py:1282-1295
  ⟨[(s% "kml"), (s% "")], [.cls .StyleUrl, .cls .Style], (s% "style"), .xmlSub, .xmlSub, (s% "Style"), .none⟩]

/-- The registrations for `styles.StyleMap`, in order (fastkml/styles.py:1404-1414). -/
def items_StyleMap : List (Item Cls) := [
  -- fastkml/styles.py:1404-1414
  ⟨[(s% "kml"), (s% "")], [.cls .Pair], (s% "pairs"), .xmlSubList, .xmlSubList, (s% "Pair"), .none⟩]

/-- The registrations for `data.SimpleField`, in order (fastkml/data.py:157-189). -/
def items_SimpleField : List (Item Cls) := [
  -- fastkml/data.py:157-167
  ⟨[(s% "kml"), (s% "")], [.str], (s% "display_name"), .subText, .subText, (s% "displayName"), .none⟩,
  -- fastkml/data.py:168-178
  ⟨[(s% ""), (s% "kml")], [.str], (s% "name"), .attrText, .attrText, (s% "name"), .none⟩,
  -- fastkml/data.py:179-189
  ⟨[(s% ""), (s% "kml")], [.enum .dataType], (s% "type_"), .attrEnum, .attrEnum, (s% "type"), .none⟩]

/-- The registrations for `data.Schema`, in order (fastkml/data.py:289-321). -/
def items_Schema : List (Item Cls) := [
  -- fastkml/data.py:289-299
  ⟨[(s% "kml"), (s% "")], [.str], (s% "id"), .attrText, .attrText, (s% "id"), .none⟩,
  -- fastkml/data.py:300-310
  ⟨[(s% ""), (s% "kml")], [.str], (s% "name"), .attrText, .attrText, (s% "name"), .none⟩,
  -- fastkml/data.py:311-321
  ⟨[(s% "kml"), (s% "")], [.cls .SimpleField], (s% "fields"), .xmlSubList, .xmlSubList, (s% "SimpleField"), .none⟩]

/-- The registrations for `data.Data`, in order (fastkml/data.py:409-441). -/
def items_Data : List (Item Cls) := [
  -- fastkml/data.py:409-419
  ⟨[(s% "kml"), (s% "")], [.str], (s% "display_name"), .subText, .subText, (s% "displayName"), .none⟩,
  -- fastkml/data.py:420-430
  ⟨[(s% "kml"), (s% "")], [.str], (s% "value"), .subText, .subText, (s% "value"), .none⟩,
  -- fastkml/data.py:431-441
  ⟨[(s% ""), (s% "kml")], [.str], (s% "name"), .attrText, .attrText, (s% "name"), .none⟩]

/-- The registrations for `data.SimpleData`, in order (fastkml/data.py:518-539). -/
def items_SimpleData : List (Item Cls) := [
  -- fastkml/data.py:518-528
  ⟨[(s% "kml"), (s% "")], [.str], (s% "value"), .nodeText, .nodeText, (s% "value"), .none⟩,
  -- fastkml/data.py:529-539
  ⟨[(s% ""), (s% "kml")], [.str], (s% "name"), .attrText, .attrText, (s% "name"), .none⟩]

/-- The registrations for `data.SchemaData`, in order (fastkml/data.py:633-654). -/
def items_SchemaData : List (Item Cls) := [
  -- fastkml/data.py:633-643
  ⟨[(s% ""), (s% "kml")], [.str], (s% "schema_url"), .attrText, .attrText, (s% "schemaUrl"), .none⟩,
  -- fastkml/data.py:644-654
  ⟨[(s% "kml"), (s% "")], [.cls .SimpleData], (s% "data"), .xmlSubList, .xmlSubList, (s% "SimpleData"), .none⟩]

/-- The registrations for `data.ExtendedData`, in order (fastkml/data.py:725-738). -/
def items_ExtendedData : List (Item Cls) := [
  -- fastkml/data.py:725-738
  ⟨[(s% "kml"), (s% "")], [.cls .Data, .cls .SchemaData], (s% "elements"), .xmlSubList, .xmlSubList, (s% "Data,SchemaData"), .none⟩]

/-- The registrations for `geometry.Coordinates`, in order (fastkml/geometry.py:300-310). -/
def items_Coordinates : List (Item Cls) := [
  -- fastkml/geometry.py:300-310
  ⟨[(s% "kml"), (s% "")], [.lineType], (s% "coords"), .coordinates, .coordinates, (s% "coordinates"), .none⟩]

/-- The registrations for `geometry.Point`, in order (fastkml/geometry.py:501-535). -/
def items_Point : List (Item Cls) := [
  -- fastkml/geometry.py:501-512
  ⟨[(s% "kml"), (s% "")], [.bool], (s% "extrude"), .subBool, .subBool, (s% "extrude"), .bool false⟩,
  -- fastkml/geometry.py:513-524
  ⟨[(s% "kml"), (s% "gx"), (s% "")], [.enum .altitudeMode], (s% "altitude_mode"), .subEnum, .subEnum, (s% "altitudeMode"), .enum .altitudeMode (s% "clampToGround")⟩,
  -- fastkml/geometry.py:525-535
  ⟨[(s% "kml"), (s% "")], [.cls .Coordinates], (s% "kml_coordinates"), .xmlSub, .xmlSub, (s% "coordinates"), .none⟩]

/-- The registrations for `geometry.LineString`, in order (fastkml/geometry.py:668-714). -/
def items_LineString : List (Item Cls) := [
  -- fastkml/geometry.py:668-679
  ⟨[(s% "kml"), (s% "")], [.bool], (s% "extrude"), .subBool, .subBool, (s% "extrude"), .bool false⟩,
  -- fastkml/geometry.py:680-691
  ⟨[(s% "kml"), (s% "")], [.bool], (s% "tessellate"), .subBool, .subBool, (s% "tessellate"), .bool false⟩,
  -- fastkml/geometry.py:692-703
  ⟨[(s% "kml"), (s% "gx"), (s% "")], [.enum .altitudeMode], (s% "altitude_mode"), .subEnum, .subEnum, (s% "altitudeMode"), .enum .altitudeMode (s% "clampToGround")⟩,
  -- fastkml/geometry.py:704-714
  ⟨[(s% "kml"), (s% "")], [.cls .Coordinates], (s% "kml_coordinates"), .xmlSub, .xmlSub, (s% "coordinates"), .none⟩]

/-- The registrations for `geometry.BoundaryIs`, in order (fastkml/geometry.py:936-946). -/
def items_BoundaryIs : List (Item Cls) := [
  -- fastkml/geometry.py:936-946
  ⟨[(s% "kml"), (s% "")], [.cls .LinearRing], (s% "kml_geometry"), .xmlSub, .xmlSub, (s% "LinearRing"), .none⟩]

/-- The registrations for `geometry.Polygon`, in order (fastkml/geometry.py:1134-1191). -/
def items_Polygon : List (Item Cls) := [
  -- fastkml/geometry.py:1134-1145
  ⟨[(s% "kml"), (s% "")], [.bool], (s% "extrude"), .subBool, .subBool, (s% "extrude"), .bool false⟩,
  -- fastkml/geometry.py:1146-1157
  ⟨[(s% "kml"), (s% "")], [.bool], (s% "tessellate"), .subBool, .subBool, (s% "tessellate"), .bool false⟩,
  -- fastkml/geometry.py:1158-1169
  ⟨[(s% "kml"), (s% "gx"), (s% "")], [.enum .altitudeMode], (s% "altitude_mode"), .subEnum, .subEnum, (s% "altitudeMode"), .enum .altitudeMode (s% "clampToGround")⟩,
  -- fastkml/geometry.py:1170-1180
  ⟨[(s% "kml"), (s% "")], [.cls .OuterBoundaryIs], (s% "outer_boundary"), .xmlSub, .xmlSub, (s% "outerBoundaryIs"), .none⟩,
  -- fastkml/geometry.py:1181-1191
  ⟨[(s% "kml"), (s% "")], [.cls .InnerBoundaryIs], (s% "inner_boundaries"), .xmlSubList, .xmlSubList, (s% "innerBoundaryIs"), .none⟩]

/-- The registrations for `geometry.MultiGeometry`, in order (fastkml/geometry.py:1344-1354). -/
def items_MultiGeometry : List (Item Cls) := [
  -- fastkml/geometry.py:1344-1354
  ⟨[(s% "kml"), (s% "")], [.cls .Point, .cls .LineString, .cls .Polygon, .cls .LinearRing, .cls .MultiGeometry], (s% "kml_geometries"), .xmlSubList, .xmlSubList, (s% "(Point|LineString|Polygon|LinearRing|MultiGeometry)"), .none⟩]

/-- The registrations for `gx.Track`, in order (fastkml/gx.py:374-430). -/
def items_Track : List (Item Cls) := [
  -- fastkml/gx.py:374-385
  ⟨[(s% "gx"), (s% "kml"), (s% "")], [.enum .altitudeMode], (s% "altitude_mode"), .subEnum, .subEnum, (s% "altitudeMode"), .enum .altitudeMode (s% "clampToGround")⟩,
  -- fastkml/gx.py:386-396
  ⟨[(s% "kml"), (s% "gx"), (s% "")], [.kmlDateTime], (s% "whens"), .subDtList, .subDtList, (s% "when"), .none⟩,
  -- fastkml/gx.py:397-407
  ⟨[(s% "gx"), (s% "")], [.tuple], (s% "coords"), .coordsList, .coordsList, (s% "coord"), .none⟩,
  -- fastkml/gx.py:408-419
  ⟨[(s% "gx"), (s% "")], [.tuple], (s% "angles"), .coordsList, .coordsList, (s% "angles"), .floats [((0), 0), ((0), 0), ((0), 0)]⟩,
  -- fastkml/gx.py:420-430
  ⟨[(s% "kml"), (s% "")], [.cls .ExtendedData], (s% "extended_data"), .xmlSub, .xmlSub, (s% "ExtendedData"), .none⟩]

/-- The registrations for `gx.MultiTrack`, in order (fastkml/gx.py:558-591). -/
def items_MultiTrack : List (Item Cls) := [
  -- fastkml/gx.py:558-569
  ⟨[(s% "gx"), (s% "kml")], [.enum .altitudeMode], (s% "altitude_mode"), .subEnum, .subEnum, (s% "altitudeMode"), .enum .altitudeMode (s% "clampToGround")⟩,
  -- fastkml/gx.py:570-580
  ⟨[(s% "gx")], [.bool], (s% "interpolate"), .subBool, .subBool, (s% "interpolate"), .none⟩,
  -- fastkml/gx.py:581-591
  ⟨[(s% "gx")], [.cls .Track], (s% "tracks"), .xmlSubList, .xmlSubList, (s% "gx:Track"), .none⟩]

/-- The registrations for `model.Location`, in order (fastkml/model.py:107-140). -/
def items_Location : List (Item Cls) := [
  -- fastkml/model.py:107-117
  ⟨[(s% "kml"), (s% "")], [.float], (s% "longitude"), .subFloat, .subFloat, (s% "longitude"), .none⟩,
  -- fastkml/model.py:118-128
  ⟨[(s% "kml"), (s% "")], [.float], (s% "latitude"), .subFloat, .subFloat, (s% "latitude"), .none⟩,
  -- fastkml/model.py:129-140
  ⟨[(s% "kml"), (s% "")], [.float], (s% "altitude"), .subFloat, .subFloat, (s% "altitude"), .float (0) 0⟩]

/-- The registrations for `model.Orientation`, in order (fastkml/model.py:187-222). -/
def items_Orientation : List (Item Cls) := [
  -- fastkml/model.py:187-198
  ⟨[(s% "kml"), (s% "")], [.float], (s% "heading"), .subFloat, .subFloat, (s% "heading"), .float (0) 0⟩,
  -- fastkml/model.py:199-210
  ⟨[(s% "kml"), (s% "")], [.float], (s% "tilt"), .subFloat, .subFloat, (s% "tilt"), .float (0) 0⟩,
  -- fastkml/model.py:211-222
  ⟨[(s% "kml"), (s% "")], [.float], (s% "roll"), .subFloat, .subFloat, (s% "roll"), .float (0) 0⟩]

/-- The registrations for `model.Scale`, in order (fastkml/model.py:267-302). -/
def items_Scale : List (Item Cls) := [
  -- fastkml/model.py:267-278
  ⟨[(s% "kml"), (s% "")], [.float], (s% "x"), .subFloat, .subFloat, (s% "x"), .float (1) 0⟩,
  -- fastkml/model.py:279-290
  ⟨[(s% "kml"), (s% "")], [.float], (s% "y"), .subFloat, .subFloat, (s% "y"), .float (1) 0⟩,
  -- fastkml/model.py:291-302
  ⟨[(s% "kml"), (s% "")], [.float], (s% "z"), .subFloat, .subFloat, (s% "z"), .float (1) 0⟩]

/-- The registrations for `model.Alias`, in order (fastkml/model.py:343-364). -/
def items_Alias : List (Item Cls) := [
  -- fastkml/model.py:343-353
  ⟨[(s% "kml"), (s% "")], [.str], (s% "target_href"), .subText, .subText, (s% "targetHref"), .none⟩,
  -- fastkml/model.py:354-364
  ⟨[(s% "kml"), (s% "")], [.str], (s% "source_href"), .subText, .subText, (s% "sourceHref"), .none⟩]

/-- The registrations for `model.ResourceMap`, in order (fastkml/model.py:401-411). -/
def items_ResourceMap : List (Item Cls) := [
  -- fastkml/model.py:401-411
  ⟨[(s% "kml"), (s% "")], [.cls .Alias], (s% "aliases"), .xmlSubList, .xmlSubList, (s% "Alias"), .none⟩]

/-- The registrations for `model.Model`, in order (fastkml/model.py:481-547). -/
def items_Model : List (Item Cls) := [
  -- fastkml/model.py:481-492
  ⟨[(s% "kml"), (s% "gx"), (s% "")], [.enum .altitudeMode], (s% "altitude_mode"), .subEnum, .subEnum, (s% "altitudeMode"), .enum .altitudeMode (s% "clampToGround")⟩,
  -- fastkml/model.py:493-503
  ⟨[(s% "kml"), (s% "")], [.cls .Location], (s% "location"), .xmlSub, .xmlSub, (s% "Location"), .none⟩,
  -- fastkml/model.py:504-514
  ⟨[(s% "kml"), (s% "")], [.cls .Orientation], (s% "orientation"), .xmlSub, .xmlSub, (s% "Orientation"), .none⟩,
  -- fastkml/model.py:515-525
  ⟨[(s% "kml"), (s% "")], [.cls .Scale], (s% "scale"), .xmlSub, .xmlSub, (s% "Scale"), .none⟩,
  -- fastkml/model.py:526-536
  ⟨[(s% "kml"), (s% "")], [.cls .Link], (s% "link"), .xmlSub, .xmlSub, (s% "Link"), .none⟩,
  -- fastkml/model.py:537-547
  ⟨[(s% "kml"), (s% "")], [.cls .ResourceMap], (s% "resource_map"), .xmlSub, .xmlSub, (s% "ResourceMap"), .none⟩]

/-- The registrations for `features.Snippet`, in order (fastkml/features.py:176-198). -/
def items_Snippet : List (Item Cls) := [
  -- fastkml/features.py:176-186
  ⟨[(s% "kml"), (s% "")], [.str], (s% "text"), .nodeText, .nodeText, (s% "Snippet"), .none⟩,
  -- fastkml/features.py:187-198
  ⟨[(s% ""), (s% "kml")], [.int], (s% "max_lines"), .attrInt, .attrInt, (s% "maxLines"), .int (2)⟩]

/-- The registrations for `features._Feature`, in order (fastkml/features.py:311-486). -/
def items__Feature : List (Item Cls) := [
  -- fastkml/features.py:311-321
  ⟨[(s% "kml"), (s% "")], [.str], (s% "name"), .subText, .subText, (s% "name"), .none⟩,
  -- fastkml/features.py:322-333
  ⟨[(s% "kml"), (s% "")], [.bool], (s% "visibility"), .subBool, .subBool, (s% "visibility"), .bool true⟩,
  -- fastkml/features.py:334-345
  ⟨[(s% "kml"), (s% "")], [.bool], (s% "isopen"), .subBool, .subBool, (s% "open"), .bool false⟩,
  -- fastkml/features.py:346-356
  ⟨[(s% "atom")], [.cls .Author], (s% "atom_author"), .xmlSub, .xmlSub, (s% "atom:author"), .none⟩,
  -- fastkml/features.py:357-367
  ⟨[(s% "atom")], [.cls .atom_Link], (s% "atom_link"), .xmlSub, .xmlSub, (s% "atom:link"), .none⟩,
  -- fastkml/features.py:368-378
  ⟨[(s% "kml"), (s% "")], [.str], (s% "address"), .subText, .subText, (s% "address"), .none⟩,
  -- fastkml/features.py:379-389
  ⟨[(s% "kml"), (s% "")], [.str], (s% "phone_number"), .subText, .subText, (s% "phoneNumber"), .none⟩,
  -- fastkml/features.py:390-400
  ⟨[(s% "kml"), (s% "")], [.cls .Snippet], (s% "snippet"), .xmlSub, .xmlSub, (s% "Snippet"), .none⟩,
  -- fastkml/features.py:401-411
  ⟨[(s% "kml"), (s% "")], [.str], (s% "description"), .subText, .subText, (s% "description"), .none⟩,
  -- fastkml/features.py:412-425
  ⟨[(s% "kml"), (s% "")], [.cls .Camera, .cls .LookAt], (s% "view"), .xmlSub, .xmlSub, (s% "Camera,LookAt"), .none⟩,
  -- fastkml/features.py:426-439
  ⟨[(s% "kml"), (s% "")], [.cls .TimeSpan, .cls .TimeStamp], (s% "times"), .xmlSub, .xmlSub, (s% "TimeSpan,TimeStamp"), .none⟩,
  -- fastkml/features.py:440-450
  ⟨[(s% "kml"), (s% "")], [.cls .StyleUrl], (s% "style_url"), .xmlSub, .xmlSub, (s% "styleUrl"), .none⟩,
  -- fastkml/features.py:451-464
  ⟨[(s% "kml"), (s% "")], [.cls .Style, .cls .StyleMap], (s% "styles"), .xmlSubList, .xmlSubList, (s% "Style,StyleMap"), .none⟩,
  -- fastkml/features.py:465-475
  ⟨[(s% "kml"), (s% "")], [.cls .Region], (s% "region"), .xmlSub, .xmlSub, (s% "region"), .none⟩,
  -- fastkml/features.py:476-486
  ⟨[(s% "kml"), (s% "")], [.cls .ExtendedData], (s% "extended_data"), .xmlSub, .xmlSub, (s% "ExtendedData"), .none⟩]

/-- The registrations for `features.Placemark`, in order (fastkml/features.py:664-686). -/
def items_Placemark : List (Item Cls) := [
  -- fastkml/features.py:664-686
  ⟨[(s% "kml"), (s% "gx"), (s% "")], [.cls .Point, .cls .LineString, .cls .LinearRing, .cls .Polygon, .cls .MultiGeometry, .cls .Model, .cls .MultiTrack, .cls .Track], (s% "kml_geometry"), .xmlSub, .xmlSub, (s% "Point,LineString,LinearRing,Polygon,MultiGeometry,Model,gx:MultiTrack,gx:Track"), .none⟩]

/-- The registrations for `features.NetworkLink`, in order (fastkml/features.py:894-928). -/
def items_NetworkLink : List (Item Cls) := [
  -- fastkml/features.py:894-905
  ⟨[(s% "kml"), (s% "")], [.bool], (s% "refresh_visibility"), .subBool, .subBool, (s% "refreshVisibility"), .bool false⟩,
  -- fastkml/features.py:906-917
  ⟨[(s% "kml"), (s% "")], [.bool], (s% "fly_to_view"), .subBool, .subBool, (s% "flyToView"), .bool false⟩,
  -- fastkml/features.py:918-928
  ⟨[(s% "kml"), (s% "")], [.cls .Link], (s% "link"), .xmlSub, .xmlSub, (s% "Link"), .none⟩]

/-- The registrations for `overlays._Overlay`, in order (fastkml/overlays.py:229-263). -/
def items__Overlay : List (Item Cls) := [
  -- fastkml/overlays.py:229-240
  ⟨[(s% "kml"), (s% "")], [.str], (s% "color"), .subText, .subText, (s% "color"), .str (s% "ffffffff")⟩,
  -- fastkml/overlays.py:241-252
  ⟨[(s% "kml"), (s% "")], [.int], (s% "draw_order"), .subInt, .subInt, (s% "drawOrder"), .int (0)⟩,
  -- fastkml/overlays.py:253-263
  ⟨[(s% "kml"), (s% "")], [.cls .Icon], (s% "icon"), .xmlSub, .xmlSub, (s% "Icon"), .none⟩]

/-- The registrations for `overlays.ViewVolume`, in order (fastkml/overlays.py:380-439). -/
def items_ViewVolume : List (Item Cls) := [
  -- fastkml/overlays.py:380-391
  ⟨[(s% "kml"), (s% "")], [.float], (s% "left_fov"), .subFloat, .subFloat, (s% "leftFov"), .float (0) 0⟩,
  -- fastkml/overlays.py:392-403
  ⟨[(s% "kml"), (s% "")], [.float], (s% "right_fov"), .subFloat, .subFloat, (s% "rightFov"), .float (0) 0⟩,
  -- fastkml/overlays.py:404-415
  ⟨[(s% "kml"), (s% "")], [.float], (s% "bottom_fov"), .subFloat, .subFloat, (s% "bottomFov"), .float (0) 0⟩,
  -- fastkml/overlays.py:416-427
  ⟨[(s% "kml"), (s% "")], [.float], (s% "top_fov"), .subFloat, .subFloat, (s% "topFov"), .float (0) 0⟩,
  -- fastkml/overlays.py:428-439
  ⟨[(s% "kml"), (s% "")], [.float], (s% "near"), .subFloat, .subFloat, (s% "near"), .float (0) 0⟩]

/-- The registrations for `overlays.ImagePyramid`, in order (fastkml/overlays.py:550-595). -/
def items_ImagePyramid : List (Item Cls) := [
  -- fastkml/overlays.py:550-561
  ⟨[(s% "kml"), (s% "")], [.int], (s% "tile_size"), .subInt, .subInt, (s% "tileSize"), .int (256)⟩,
  -- fastkml/overlays.py:562-572
  ⟨[(s% "kml"), (s% "")], [.int], (s% "max_width"), .subInt, .subInt, (s% "maxWidth"), .none⟩,
  -- fastkml/overlays.py:573-583
  ⟨[(s% "kml"), (s% "")], [.int], (s% "max_height"), .subInt, .subInt, (s% "maxHeight"), .none⟩,
  -- fastkml/overlays.py:584-595
  ⟨[(s% "kml"), (s% "")], [.enum .gridOrigin], (s% "grid_origin"), .subEnum, .subEnum, (s% "gridOrigin"), .enum .gridOrigin (s% "lowerLeft")⟩]

/-- The registrations for `overlays.PhotoOverlay`, in order (fastkml/overlays.py:821-877). -/
def items_PhotoOverlay : List (Item Cls) := [
  -- fastkml/overlays.py:821-832
  ⟨[(s% "kml"), (s% "")], [.float], (s% "rotation"), .subFloat, .subFloat, (s% "rotation"), .float (0) 0⟩,
  -- fastkml/overlays.py:833-843
  ⟨[(s% "kml"), (s% "")], [.cls .ViewVolume], (s% "view_volume"), .xmlSub, .xmlSub, (s% "ViewVolume"), .none⟩,
  -- fastkml/overlays.py:844-854
  ⟨[(s% "kml"), (s% "")], [.cls .ImagePyramid], (s% "image_pyramid"), .xmlSub, .xmlSub, (s% "ImagePyramid"), .none⟩,
  -- fastkml/overlays.py:855-865
  ⟨[(s% "kml"), (s% "")], [.cls .Point], (s% "point"), .xmlSub, .xmlSub, (s% "Point"), .none⟩,
  -- fastkml/overlays.py:866-877
  ⟨[(s% "kml"), (s% "")], [.enum .shape], (s% "shape"), .subEnum, .subEnum, (s% "shape"), .enum .shape (s% "rectangle")⟩]

/-- The registrations for `overlays.LatLonBox`, in order (fastkml/overlays.py:992-1047). -/
def items_LatLonBox : List (Item Cls) := [
  -- fastkml/overlays.py:992-1002
  ⟨[(s% "kml"), (s% "")], [.float], (s% "north"), .subFloat, .subFloat, (s% "north"), .none⟩,
  -- fastkml/overlays.py:1003-1013
  ⟨[(s% "kml"), (s% "")], [.float], (s% "south"), .subFloat, .subFloat, (s% "south"), .none⟩,
  -- fastkml/overlays.py:1014-1024
  ⟨[(s% "kml"), (s% "")], [.float], (s% "east"), .subFloat, .subFloat, (s% "east"), .none⟩,
  -- fastkml/overlays.py:1025-1035
  ⟨[(s% "kml"), (s% "")], [.float], (s% "west"), .subFloat, .subFloat, (s% "west"), .none⟩,
  -- fastkml/overlays.py:1036-1047
  ⟨[(s% "kml"), (s% "")], [.float], (s% "rotation"), .subFloat, .subFloat, (s% "rotation"), .float (0) 0⟩]

/-- The registrations for `overlays.GroundOverlay`, in order (fastkml/overlays.py:1241-1275). -/
def items_GroundOverlay : List (Item Cls) := [
  -- fastkml/overlays.py:1241-1252
  ⟨[(s% "kml"), (s% "")], [.float], (s% "altitude"), .subFloat, .subFloat, (s% "altitude"), .float (0) 0⟩,
  -- fastkml/overlays.py:1253-1264
  ⟨[(s% "kml"), (s% "gx"), (s% "")], [.enum .altitudeMode], (s% "altitude_mode"), .subEnum, .subEnum, (s% "altitudeMode"), .enum .altitudeMode (s% "clampToGround")⟩,
  -- fastkml/overlays.py:1265-1275
  ⟨[(s% "kml"), (s% "")], [.cls .LatLonBox], (s% "lat_lon_box"), .xmlSub, .xmlSub, (s% "LatLonBox"), .none⟩]

/-- The registrations for `overlays._XY`, in order (fastkml/overlays.py:1352-1397). -/
def items__XY : List (Item Cls) := [
  -- fastkml/overlays.py:1352-1362
  ⟨[(s% ""), (s% "kml")], [.float], (s% "x"), .attrFloat, .attrFloat, (s% "x"), .none⟩,
  -- fastkml/overlays.py:1363-1373
  ⟨[(s% ""), (s% "kml")], [.float], (s% "y"), .attrFloat, .attrFloat, (s% "y"), .none⟩,
  -- fastkml/overlays.py:1374-1385
  ⟨[(s% ""), (s% "kml")], [.enum .units], (s% "x_units"), .attrEnum, .attrEnum, (s% "xunits"), .enum .units (s% "fraction")⟩,
  -- fastkml/overlays.py:1386-1397
  ⟨[(s% ""), (s% "kml")], [.enum .units], (s% "y_units"), .attrEnum, .attrEnum, (s% "yunits"), .enum .units (s% "fraction")⟩]

/-- The registrations for `overlays.ScreenOverlay`, in order (fastkml/overlays.py:1622-1677). -/
def items_ScreenOverlay : List (Item Cls) := [
  -- fastkml/overlays.py:1622-1632
  ⟨[(s% "kml"), (s% "")], [.cls .OverlayXY], (s% "overlay_xy"), .xmlSub, .xmlSub, (s% "overlayXY"), .none⟩,
  -- fastkml/overlays.py:1633-1643
  ⟨[(s% "kml"), (s% "")], [.cls .ScreenXY], (s% "screen_xy"), .xmlSub, .xmlSub, (s% "screenXY"), .none⟩,
  -- fastkml/overlays.py:1644-1654
  ⟨[(s% "kml"), (s% "")], [.cls .RotationXY], (s% "rotation_xy"), .xmlSub, .xmlSub, (s% "rotationXY"), .none⟩,
  -- fastkml/overlays.py:1655-1665
  ⟨[(s% "kml"), (s% "")], [.cls .Size], (s% "size"), .xmlSub, .xmlSub, (s% "size"), .none⟩,
  -- fastkml/overlays.py:1666-1677
  ⟨[(s% "kml"), (s% "")], [.float], (s% "rotation"), .subFloat, .subFloat, (s% "rotation"), .float (0) 0⟩]

/-- The registrations for `containers._Container`, in order (fastkml/containers.py:329-350). -/
def items__Container : List (Item Cls) := [
  -- fastkml/containers.py:329-350
  ⟨[(s% "kml"), (s% "")], [.cls .Document, .cls .Folder, .cls .Placemark, .cls .GroundOverlay, .cls .PhotoOverlay, .cls .ScreenOverlay, .cls .NetworkLink], (s% "features"), .xmlSubList, .xmlSubList, (s% "Folder,Placemark,Document,GroundOverlay,PhotoOverlay,ScreenOverlay,NetworkLink"), .none⟩]

/-- The registrations for `containers.Document`, in order (fastkml/containers.py:351-361). -/
def items_Document : List (Item Cls) := [
  -- fastkml/containers.py:351-361
  ⟨[(s% "kml"), (s% "")], [.cls .Schema], (s% "schemata"), .xmlSubList, .xmlSubList, (s% "Schema"), .none⟩]

/-- The registrations for `network_link_control.NetworkLinkControl`, in order (fastkml/network_link_control.py:158-261). -/
def items_NetworkLinkControl : List (Item Cls) := [
  -- fastkml/network_link_control.py:158-169
  ⟨[(s% "kml")], [.float], (s% "min_refresh_period"), .subFloat, .subFloat, (s% "minRefreshPeriod"), .int (0)⟩,
  -- fastkml/network_link_control.py:170-181
  ⟨[(s% "kml")], [.float], (s% "max_session_length"), .subFloat, .subFloat, (s% "maxSessionLength"), .int (-1)⟩,
  -- fastkml/network_link_control.py:182-192
  ⟨[(s% "kml")], [.str], (s% "cookie"), .subText, .subText, (s% "cookie"), .none⟩,
  -- fastkml/network_link_control.py:193-203
  ⟨[(s% "kml")], [.str], (s% "message"), .subText, .subText, (s% "message"), .none⟩,
  -- fastkml/network_link_control.py:204-214
  ⟨[(s% "kml")], [.str], (s% "link_name"), .subText, .subText, (s% "linkName"), .none⟩,
  -- fastkml/network_link_control.py:215-225
  ⟨[(s% "kml")], [.str], (s% "link_description"), .subText, .subText, (s% "linkDescription"), .none⟩,
  -- fastkml/network_link_control.py:226-236
  ⟨[(s% "kml")], [.str], (s% "link_snippet"), .subText, .subText, (s% "linkSnippet"), .none⟩,
  -- fastkml/network_link_control.py:237-247
  ⟨[(s% "kml")], [.kmlDateTime], (s% "expires"), .subDt, .subDt, (s% "expires"), .none⟩,
  -- fastkml/network_link_control.py:248-261
  ⟨[(s% "kml")], [.cls .Camera, .cls .LookAt], (s% "view"), .xmlSub, .xmlSub, (s% "Camera,LookAt"), .none⟩]

/-- The registrations for `kml.KML`, in order (fastkml/kml.py:293-314). -/
def items_KML : List (Item Cls) := [
  -- fastkml/kml.py:293-314
  ⟨[(s% "kml")], [.cls .Document, .cls .Folder, .cls .Placemark, .cls .GroundOverlay, .cls .PhotoOverlay, .cls .NetworkLink, .cls .NetworkLinkControl], (s% "features"), .xmlSubList, .xmlSubList, (s% "Document,Folder,Placemark,GroundOverlay,PhotoOverlay,NetworkLink,NetworkLinkControl"), .none⟩]

/-- The calls of `registry.register` made when the modules are imported, grouped
by class (calls for different classes commute, see `Verif.Registry`). -/
def registrations : List (Cls × Item Cls) := List.flatten [
  items__BaseObject.map (fun i => (Cls._BaseObject, i)),
  items_atom_Link.map (fun i => (Cls.atom_Link, i)),
  items__Person.map (fun i => (Cls._Person, i)),
  items_TimeStamp.map (fun i => (Cls.TimeStamp, i)),
  items_TimeSpan.map (fun i => (Cls.TimeSpan, i)),
  items__AbstractView.map (fun i => (Cls._AbstractView, i)),
  items_Camera.map (fun i => (Cls.Camera, i)),
  items_LookAt.map (fun i => (Cls.LookAt, i)),
  items_LatLonAltBox.map (fun i => (Cls.LatLonAltBox, i)),
  items_Lod.map (fun i => (Cls.Lod, i)),
  items_Region.map (fun i => (Cls.Region, i)),
  items_Link.map (fun i => (Cls.Link, i)),
  items_StyleUrl.map (fun i => (Cls.StyleUrl, i)),
  items__ColorStyle.map (fun i => (Cls._ColorStyle, i)),
  items_HotSpot.map (fun i => (Cls.HotSpot, i)),
  items_IconStyle.map (fun i => (Cls.IconStyle, i)),
  items_LineStyle.map (fun i => (Cls.LineStyle, i)),
  items_PolyStyle.map (fun i => (Cls.PolyStyle, i)),
  items_LabelStyle.map (fun i => (Cls.LabelStyle, i)),
  items_BalloonStyle.map (fun i => (Cls.BalloonStyle, i)),
  items_Style.map (fun i => (Cls.Style, i)),
  items_Pair.map (fun i => (Cls.Pair, i)),
  items_StyleMap.map (fun i => (Cls.StyleMap, i)),
  items_SimpleField.map (fun i => (Cls.SimpleField, i)),
  items_Schema.map (fun i => (Cls.Schema, i)),
  items_Data.map (fun i => (Cls.Data, i)),
  items_SimpleData.map (fun i => (Cls.SimpleData, i)),
  items_SchemaData.map (fun i => (Cls.SchemaData, i)),
  items_ExtendedData.map (fun i => (Cls.ExtendedData, i)),
  items_Coordinates.map (fun i => (Cls.Coordinates, i)),
  items_Point.map (fun i => (Cls.Point, i)),
  items_LineString.map (fun i => (Cls.LineString, i)),
  items_BoundaryIs.map (fun i => (Cls.BoundaryIs, i)),
  items_Polygon.map (fun i => (Cls.Polygon, i)),
  items_MultiGeometry.map (fun i => (Cls.MultiGeometry, i)),
  items_Track.map (fun i => (Cls.Track, i)),
  items_MultiTrack.map (fun i => (Cls.MultiTrack, i)),
  items_Location.map (fun i => (Cls.Location, i)),
  items_Orientation.map (fun i => (Cls.Orientation, i)),
  items_Scale.map (fun i => (Cls.Scale, i)),
  items_Alias.map (fun i => (Cls.Alias, i)),
  items_ResourceMap.map (fun i => (Cls.ResourceMap, i)),
  items_Model.map (fun i => (Cls.Model, i)),
  items_Snippet.map (fun i => (Cls.Snippet, i)),
  items__Feature.map (fun i => (Cls._Feature, i)),
  items_Placemark.map (fun i => (Cls.Placemark, i)),
  items_NetworkLink.map (fun i => (Cls.NetworkLink, i)),
  items__Overlay.map (fun i => (Cls._Overlay, i)),
  items_ViewVolume.map (fun i => (Cls.ViewVolume, i)),
  items_ImagePyramid.map (fun i => (Cls.ImagePyramid, i)),
  items_PhotoOverlay.map (fun i => (Cls.PhotoOverlay, i)),
  items_LatLonBox.map (fun i => (Cls.LatLonBox, i)),
  items_GroundOverlay.map (fun i => (Cls.GroundOverlay, i)),
  items__XY.map (fun i => (Cls._XY, i)),
  items_ScreenOverlay.map (fun i => (Cls.ScreenOverlay, i)),
  items__Container.map (fun i => (Cls._Container, i)),
  items_Document.map (fun i => (Cls.Document, i)),
  items_NetworkLinkControl.map (fun i => (Cls.NetworkLinkControl, i)),
  items_KML.map (fun i => (Cls.KML, i))]

/-- The global registry (fastkml/registry.py:182) after import. -/
def kmlRegistry : Registry Cls := registrations.foldl (fun r p => r.register p.1 p.2) []

/-- fastkml. -/
def fastkml : Lib Cls := ⟨clsInfo, kmlRegistry⟩

end Verif
