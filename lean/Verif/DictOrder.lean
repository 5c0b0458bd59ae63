import Verif.Classes

/-!
# The order of instance attributes

Generated by tools/gen.py from the text of /repo/fastkml; do not edit.
-/

namespace Verif

/-- The attributes that the constructor sets before it reaches
`_XMLObject.__init__` (fastkml/base.py:62-88), in order. -/
def beforeBase : Cls → List Str
  -- fastkml/base.py:62-88
  | ._XMLObject => []
  -- fastkml/kml_base.py:64-95
  | ._BaseObject => []
  -- fastkml/base.py:62-88
  | ._AtomObject => []
  -- fastkml/atom.py:93-142
  | .atom_Link => []
  -- fastkml/atom.py:266-291
  | ._Person => []
  -- fastkml/atom.py:266-291
  | .Author => []
  -- fastkml/atom.py:266-291
  | .Contributor => []
  -- fastkml/kml_base.py:64-95
  | ._TimePrimitive => []
  -- fastkml/times.py:237-276
  | .TimeStamp => []
  -- fastkml/times.py:316-353
  | .TimeSpan => []
  -- fastkml/views.py:91-150
  | ._AbstractView => []
  -- fastkml/views.py:244-295
  | .Camera => []
  -- fastkml/views.py:358-410
  | .LookAt => []
  -- fastkml/views.py:474-516
  | .LatLonAltBox => []
  -- fastkml/views.py:655-688
  | .Lod => []
  -- fastkml/views.py:781-824
  | .Region => []
  -- fastkml/links.py:60-91
  | .Link => []
  -- fastkml/links.py:60-91
  | .Icon => []
  -- fastkml/styles.py:94-125
  | .StyleUrl => []
  -- fastkml/kml_base.py:64-95
  | ._StyleSelector => []
  -- fastkml/styles.py:203-239
  | ._ColorStyle => []
  -- fastkml/styles.py:292-325
  | .HotSpot => []
  -- fastkml/styles.py:429-488
  | .IconStyle => []
  -- fastkml/styles.py:586-626
  | .LineStyle => []
  -- fastkml/styles.py:690-733
  | .PolyStyle => []
  -- fastkml/styles.py:806-846
  | .LabelStyle => []
  -- fastkml/styles.py:949-992
  | .BalloonStyle => []
  -- fastkml/styles.py:1099-1133
  | .Style => []
  -- fastkml/styles.py:1200-1243
  | .Pair => []
  -- fastkml/styles.py:1311-1345
  | .StyleMap => []
  -- fastkml/data.py:89-123
  | .SimpleField => []
  -- fastkml/data.py:208-253
  | .Schema => []
  -- fastkml/data.py:331-371
  | .Data => []
  -- fastkml/data.py:458-485
  | .SimpleData => []
  -- fastkml/data.py:556-593
  | .SchemaData => []
  -- fastkml/data.py:663-692
  | .ExtendedData => []
  -- fastkml/geometry.py:245-269
  | .Coordinates => []
  -- fastkml/geometry.py:328-361
  | ._Geometry => []
  -- fastkml/geometry.py:379-432
  | .Point => [(s% "kml_coordinates"), (s% "extrude")]
  -- fastkml/geometry.py:556-605
  | .LineString => [(s% "kml_coordinates"), (s% "extrude"), (s% "tessellate")]
  -- fastkml/geometry.py:728-784
  | .LinearRing => [(s% "kml_coordinates"), (s% "extrude"), (s% "tessellate")]
  -- fastkml/geometry.py:822-871
  | .BoundaryIs => [(s% "kml_geometry")]
  -- fastkml/geometry.py:822-871
  | .OuterBoundaryIs => [(s% "kml_geometry")]
  -- fastkml/geometry.py:822-871
  | .InnerBoundaryIs => [(s% "kml_geometry")]
  -- fastkml/geometry.py:983-1054
  | .Polygon => [(s% "outer_boundary"), (s% "inner_boundaries"), (s% "extrude"), (s% "tessellate")]
  -- fastkml/geometry.py:1233-1317
  | .MultiGeometry => [(s% "kml_geometries")]
  -- fastkml/gx.py:204-280
  | .Track => [(s% "track_items"), (s% "extended_data")]
  -- fastkml/gx.py:474-516
  | .MultiTrack => [(s% "tracks"), (s% "interpolate")]
  -- fastkml/model.py:65-78
  | .Location => []
  -- fastkml/model.py:152-165
  | .Orientation => []
  -- fastkml/model.py:234-247
  | .Scale => []
  -- fastkml/model.py:313-324
  | .Alias => []
  -- fastkml/model.py:374-383
  | .ResourceMap => []
  -- fastkml/model.py:424-451
  | .Model => []
  -- fastkml/features.py:111-142
  | .Snippet => []
  -- fastkml/features.py:228-308
  | ._Feature => []
  -- fastkml/features.py:500-613
  | .Placemark => []
  -- fastkml/features.py:734-842
  | .NetworkLink => []
  -- fastkml/overlays.py:122-226
  | ._Overlay => []
  -- fastkml/overlays.py:300-343
  | .ViewVolume => []
  -- fastkml/overlays.py:483-522
  | .ImagePyramid => []
  -- fastkml/overlays.py:655-783
  | .PhotoOverlay => []
  -- fastkml/overlays.py:913-956
  | .LatLonBox => []
  -- fastkml/overlays.py:1085-1205
  | .GroundOverlay => []
  -- fastkml/overlays.py:1289-1324
  | ._XY => []
  -- fastkml/overlays.py:1289-1324
  | .OverlayXY => []
  -- fastkml/overlays.py:1289-1324
  | .ScreenXY => []
  -- fastkml/overlays.py:1289-1324
  | .RotationXY => []
  -- fastkml/overlays.py:1289-1324
  | .Size => []
  -- fastkml/overlays.py:1450-1584
  | .ScreenOverlay => []
  -- fastkml/containers.py:84-131
  | ._Container => []
  -- fastkml/containers.py:84-131
  | .Folder => []
  -- fastkml/containers.py:190-272
  | .Document => []
  -- fastkml/network_link_control.py:69-129
  | .NetworkLinkControl => []
  -- fastkml/kml.py:119-137
  | .KML => []

end Verif
