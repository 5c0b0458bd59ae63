import Verif.Make

/-!
# The arguments in `__repr__`

Generated by tools/gen.py from the text of /repo/fastkml; do not edit.
-/

namespace Verif

/-- How an f-string prints a value: `{x!r}` or `{x}`. -/
inductive Conv where
  | repr | str
deriving DecidableEq, Repr

/-- The arguments that `__repr__` prints between `ns={self.ns!r},
name_spaces={self.name_spaces!r}` and `**{self._get_splat()!r}`: keyword, attribute
and conversion. -/
def reprFields : Cls → List (Str × Str × Conv)
  -- fastkml/base.py:90-106
  | ._XMLObject => []
  -- fastkml/kml_base.py:97-114
  | ._BaseObject => [((s% "id"), (s% "id"), .repr),
    ((s% "target_id"), (s% "target_id"), .repr)]
  -- fastkml/base.py:90-106
  | ._AtomObject => []
  -- fastkml/atom.py:144-166
  | .atom_Link => [((s% "href"), (s% "href"), .repr),
    ((s% "rel"), (s% "rel"), .repr),
    ((s% "type"), (s% "type"), .repr),
    ((s% "hreflang"), (s% "hreflang"), .repr),
    ((s% "title"), (s% "title"), .repr),
    ((s% "length"), (s% "length"), .repr)]
  -- fastkml/atom.py:293-311
  | ._Person => [((s% "name"), (s% "name"), .repr),
    ((s% "uri"), (s% "uri"), .repr),
    ((s% "email"), (s% "email"), .repr)]
  -- fastkml/atom.py:293-311
  | .Author => [((s% "name"), (s% "name"), .repr),
    ((s% "uri"), (s% "uri"), .repr),
    ((s% "email"), (s% "email"), .repr)]
  -- fastkml/atom.py:293-311
  | .Contributor => [((s% "name"), (s% "name"), .repr),
    ((s% "uri"), (s% "uri"), .repr),
    ((s% "email"), (s% "email"), .repr)]
  -- fastkml/kml_base.py:97-114
  | ._TimePrimitive => [((s% "id"), (s% "id"), .repr),
    ((s% "target_id"), (s% "target_id"), .repr)]
  -- fastkml/times.py:278-289
  | .TimeStamp => [((s% "id"), (s% "id"), .repr),
    ((s% "target_id"), (s% "target_id"), .repr),
    ((s% "timestamp"), (s% "timestamp"), .repr)]
  -- fastkml/times.py:355-367
  | .TimeSpan => [((s% "id"), (s% "id"), .repr),
    ((s% "target_id"), (s% "target_id"), .repr),
    ((s% "begin"), (s% "begin"), .repr),
    ((s% "end"), (s% "end"), .repr)]
  -- fastkml/kml_base.py:97-114
  | ._AbstractView => [((s% "id"), (s% "id"), .repr),
    ((s% "target_id"), (s% "target_id"), .repr)]
  -- fastkml/views.py:297-314
  | .Camera => [((s% "id"), (s% "id"), .repr),
    ((s% "target_id"), (s% "target_id"), .repr),
    ((s% "longitude"), (s% "longitude"), .repr),
    ((s% "latitude"), (s% "latitude"), .repr),
    ((s% "altitude"), (s% "altitude"), .repr),
    ((s% "heading"), (s% "heading"), .repr),
    ((s% "tilt"), (s% "tilt"), .repr),
    ((s% "roll"), (s% "roll"), .repr),
    ((s% "altitude_mode"), (s% "altitude_mode"), .str)]
  -- fastkml/views.py:412-429
  | .LookAt => [((s% "id"), (s% "id"), .repr),
    ((s% "target_id"), (s% "target_id"), .repr),
    ((s% "longitude"), (s% "longitude"), .repr),
    ((s% "latitude"), (s% "latitude"), .repr),
    ((s% "altitude"), (s% "altitude"), .repr),
    ((s% "heading"), (s% "heading"), .repr),
    ((s% "tilt"), (s% "tilt"), .repr),
    ((s% "range"), (s% "range"), .repr),
    ((s% "altitude_mode"), (s% "altitude_mode"), .str)]
  -- fastkml/views.py:518-533
  | .LatLonAltBox => [((s% "north"), (s% "north"), .repr),
    ((s% "south"), (s% "south"), .repr),
    ((s% "east"), (s% "east"), .repr),
    ((s% "west"), (s% "west"), .repr),
    ((s% "min_altitude"), (s% "min_altitude"), .repr),
    ((s% "max_altitude"), (s% "max_altitude"), .repr),
    ((s% "altitude_mode"), (s% "altitude_mode"), .str)]
  -- fastkml/views.py:690-702
  | .Lod => [((s% "min_lod_pixels"), (s% "min_lod_pixels"), .repr),
    ((s% "max_lod_pixels"), (s% "max_lod_pixels"), .repr),
    ((s% "min_fade_extent"), (s% "min_fade_extent"), .repr),
    ((s% "max_fade_extent"), (s% "max_fade_extent"), .repr)]
  -- fastkml/views.py:826-838
  | .Region => [((s% "id"), (s% "id"), .repr),
    ((s% "target_id"), (s% "target_id"), .repr),
    ((s% "lat_lon_alt_box"), (s% "lat_lon_alt_box"), .repr),
    ((s% "lod"), (s% "lod"), .repr)]
  -- fastkml/links.py:93-111
  | .Link => [((s% "id"), (s% "id"), .repr),
    ((s% "target_id"), (s% "target_id"), .repr),
    ((s% "href"), (s% "href"), .repr),
    ((s% "refresh_mode"), (s% "refresh_mode"), .str),
    ((s% "refresh_interval"), (s% "refresh_interval"), .repr),
    ((s% "view_refresh_mode"), (s% "view_refresh_mode"), .str),
    ((s% "view_refresh_time"), (s% "view_refresh_time"), .repr),
    ((s% "view_bound_scale"), (s% "view_bound_scale"), .repr),
    ((s% "view_format"), (s% "view_format"), .repr),
    ((s% "http_query"), (s% "http_query"), .repr)]
  -- fastkml/links.py:93-111
  | .Icon => [((s% "id"), (s% "id"), .repr),
    ((s% "target_id"), (s% "target_id"), .repr),
    ((s% "href"), (s% "href"), .repr),
    ((s% "refresh_mode"), (s% "refresh_mode"), .str),
    ((s% "refresh_interval"), (s% "refresh_interval"), .repr),
    ((s% "view_refresh_mode"), (s% "view_refresh_mode"), .str),
    ((s% "view_refresh_time"), (s% "view_refresh_time"), .repr),
    ((s% "view_bound_scale"), (s% "view_bound_scale"), .repr),
    ((s% "view_format"), (s% "view_format"), .repr),
    ((s% "http_query"), (s% "http_query"), .repr)]
  -- fastkml/styles.py:127-136
  | .StyleUrl => [((s% "url"), (s% "url"), .repr)]
  -- fastkml/kml_base.py:97-114
  | ._StyleSelector => [((s% "id"), (s% "id"), .repr),
    ((s% "target_id"), (s% "target_id"), .repr)]
  -- fastkml/kml_base.py:97-114
  | ._ColorStyle => [((s% "id"), (s% "id"), .repr),
    ((s% "target_id"), (s% "target_id"), .repr)]
  -- fastkml/styles.py:327-339
  | .HotSpot => [((s% "x"), (s% "x"), .repr),
    ((s% "y"), (s% "y"), .repr),
    ((s% "xunits"), (s% "xunits"), .str),
    ((s% "yunits"), (s% "yunits"), .str)]
  -- fastkml/styles.py:490-506
  | .IconStyle => [((s% "id"), (s% "id"), .repr),
    ((s% "target_id"), (s% "target_id"), .repr),
    ((s% "color"), (s% "color"), .repr),
    ((s% "color_mode"), (s% "color_mode"), .str),
    ((s% "scale"), (s% "scale"), .repr),
    ((s% "heading"), (s% "heading"), .repr),
    ((s% "icon"), (s% "icon"), .repr),
    ((s% "hot_spot"), (s% "hot_spot"), .repr)]
  -- fastkml/styles.py:628-641
  | .LineStyle => [((s% "id"), (s% "id"), .repr),
    ((s% "target_id"), (s% "target_id"), .repr),
    ((s% "color"), (s% "color"), .repr),
    ((s% "color_mode"), (s% "color_mode"), .str),
    ((s% "width"), (s% "width"), .repr)]
  -- fastkml/styles.py:735-749
  | .PolyStyle => [((s% "id"), (s% "id"), .repr),
    ((s% "target_id"), (s% "target_id"), .repr),
    ((s% "color"), (s% "color"), .repr),
    ((s% "color_mode"), (s% "color_mode"), .str),
    ((s% "fill"), (s% "fill"), .repr),
    ((s% "outline"), (s% "outline"), .repr)]
  -- fastkml/styles.py:848-861
  | .LabelStyle => [((s% "id"), (s% "id"), .repr),
    ((s% "target_id"), (s% "target_id"), .repr),
    ((s% "color"), (s% "color"), .repr),
    ((s% "color_mode"), (s% "color_mode"), .str),
    ((s% "scale"), (s% "scale"), .repr)]
  -- fastkml/styles.py:994-1008
  | .BalloonStyle => [((s% "id"), (s% "id"), .repr),
    ((s% "target_id"), (s% "target_id"), .repr),
    ((s% "bg_color"), (s% "bg_color"), .repr),
    ((s% "text_color"), (s% "text_color"), .repr),
    ((s% "text"), (s% "text"), .repr),
    ((s% "display_mode"), (s% "display_mode"), .str)]
  -- fastkml/styles.py:1135-1146
  | .Style => [((s% "id"), (s% "id"), .repr),
    ((s% "target_id"), (s% "target_id"), .repr),
    ((s% "styles"), (s% "styles"), .repr)]
  -- fastkml/styles.py:1245-1257
  | .Pair => [((s% "id"), (s% "id"), .repr),
    ((s% "target_id"), (s% "target_id"), .repr),
    ((s% "key"), (s% "key"), .str),
    ((s% "style"), (s% "style"), .repr)]
  -- fastkml/styles.py:1347-1358
  | .StyleMap => [((s% "id"), (s% "id"), .repr),
    ((s% "target_id"), (s% "target_id"), .repr),
    ((s% "pairs"), (s% "pairs"), .repr)]
  -- fastkml/data.py:125-143
  | .SimpleField => [((s% "name"), (s% "name"), .repr),
    ((s% "type_"), (s% "type_"), .str),
    ((s% "display_name"), (s% "display_name"), .repr)]
  -- fastkml/data.py:255-274
  | .Schema => [((s% "id"), (s% "id"), .repr),
    ((s% "name"), (s% "name"), .repr),
    ((s% "fields"), (s% "fields"), .repr)]
  -- fastkml/data.py:373-394
  | .Data => [((s% "id"), (s% "id"), .repr),
    ((s% "target_id"), (s% "target_id"), .repr),
    ((s% "name"), (s% "name"), .repr),
    ((s% "value"), (s% "value"), .repr),
    ((s% "display_name"), (s% "display_name"), .repr)]
  -- fastkml/data.py:487-504
  | .SimpleData => [((s% "name"), (s% "name"), .repr),
    ((s% "value"), (s% "value"), .repr)]
  -- fastkml/data.py:595-607
  | .SchemaData => [((s% "id"), (s% "id"), .repr),
    ((s% "target_id"), (s% "target_id"), .repr),
    ((s% "schema_url"), (s% "schema_url"), .repr),
    ((s% "data"), (s% "data"), .repr)]
  -- fastkml/data.py:694-710
  | .ExtendedData => [((s% "elements"), (s% "elements"), .repr)]
  -- fastkml/geometry.py:271-280
  | .Coordinates => [((s% "coords"), (s% "coords"), .repr)]
  -- fastkml/kml_base.py:97-114
  | ._Geometry => [((s% "id"), (s% "id"), .repr),
    ((s% "target_id"), (s% "target_id"), .repr)]
  -- fastkml/geometry.py:434-454
  | .Point => [((s% "id"), (s% "id"), .repr),
    ((s% "target_id"), (s% "target_id"), .repr),
    ((s% "extrude"), (s% "extrude"), .repr),
    ((s% "altitude_mode"), (s% "altitude_mode"), .str),
    ((s% "kml_coordinates"), (s% "kml_coordinates"), .repr)]
  -- fastkml/geometry.py:607-621
  | .LineString => [((s% "id"), (s% "id"), .repr),
    ((s% "target_id"), (s% "target_id"), .repr),
    ((s% "extrude"), (s% "extrude"), .repr),
    ((s% "tessellate"), (s% "tessellate"), .repr),
    ((s% "altitude_mode"), (s% "altitude_mode"), .str),
    ((s% "geometry"), (s% "geometry"), .repr)]
  -- fastkml/geometry.py:607-621
  | .LinearRing => [((s% "id"), (s% "id"), .repr),
    ((s% "target_id"), (s% "target_id"), .repr),
    ((s% "extrude"), (s% "extrude"), .repr),
    ((s% "tessellate"), (s% "tessellate"), .repr),
    ((s% "altitude_mode"), (s% "altitude_mode"), .str),
    ((s% "geometry"), (s% "geometry"), .repr)]
  -- fastkml/geometry.py:885-894
  | .BoundaryIs => [((s% "kml_geometry"), (s% "kml_geometry"), .repr)]
  -- fastkml/geometry.py:885-894
  | .OuterBoundaryIs => [((s% "kml_geometry"), (s% "kml_geometry"), .repr)]
  -- fastkml/geometry.py:885-894
  | .InnerBoundaryIs => [((s% "kml_geometry"), (s% "kml_geometry"), .repr)]
  -- fastkml/geometry.py:1094-1116
  | .Polygon => [((s% "id"), (s% "id"), .repr),
    ((s% "target_id"), (s% "target_id"), .repr),
    ((s% "extrude"), (s% "extrude"), .repr),
    ((s% "tessellate"), (s% "tessellate"), .repr),
    ((s% "altitude_mode"), (s% "altitude_mode"), .str),
    ((s% "geometry"), (s% "geometry"), .repr)]
  -- fastkml/geometry.py:1323-1334
  | .MultiGeometry => [((s% "id"), (s% "id"), .repr),
    ((s% "target_id"), (s% "target_id"), .repr),
    ((s% "kml_geometries"), (s% "kml_geometries"), .repr)]
  -- fastkml/gx.py:282-303
  | .Track => [((s% "id"), (s% "id"), .repr),
    ((s% "target_id"), (s% "target_id"), .repr),
    ((s% "altitude_mode"), (s% "altitude_mode"), .str),
    ((s% "track_items"), (s% "track_items"), .repr),
    ((s% "extended_data"), (s% "extended_data"), .repr)]
  -- fastkml/gx.py:518-531
  | .MultiTrack => [((s% "id"), (s% "id"), .repr),
    ((s% "target_id"), (s% "target_id"), .repr),
    ((s% "altitude_mode"), (s% "altitude_mode"), .str),
    ((s% "tracks"), (s% "tracks"), .repr),
    ((s% "interpolate"), (s% "interpolate"), .repr)]
  -- fastkml/model.py:84-95
  | .Location => [((s% "altitude"), (s% "altitude"), .repr),
    ((s% "latitude"), (s% "latitude"), .repr),
    ((s% "longitude"), (s% "longitude"), .repr)]
  -- fastkml/model.py:173-184
  | .Orientation => [((s% "heading"), (s% "heading"), .repr),
    ((s% "tilt"), (s% "tilt"), .repr),
    ((s% "roll"), (s% "roll"), .repr)]
  -- fastkml/model.py:253-264
  | .Scale => [((s% "x"), (s% "x"), .repr),
    ((s% "y"), (s% "y"), .repr),
    ((s% "z"), (s% "z"), .repr)]
  -- fastkml/model.py:330-340
  | .Alias => [((s% "target_href"), (s% "target_href"), .repr),
    ((s% "source_href"), (s% "source_href"), .repr)]
  -- fastkml/model.py:389-398
  | .ResourceMap => [((s% "aliases"), (s% "aliases"), .repr)]
  -- fastkml/model.py:457-473
  | .Model => [((s% "id"), (s% "id"), .repr),
    ((s% "target_id"), (s% "target_id"), .repr),
    ((s% "altitude_mode"), (s% "altitude_mode"), .str),
    ((s% "location"), (s% "location"), .repr),
    ((s% "orientation"), (s% "orientation"), .repr),
    ((s% "scale"), (s% "scale"), .repr),
    ((s% "link"), (s% "link"), .repr),
    ((s% "resource_map"), (s% "resource_map"), .repr)]
  -- fastkml/features.py:144-161
  | .Snippet => [((s% "text"), (s% "text"), .repr),
    ((s% "max_lines"), (s% "max_lines"), .repr)]
  -- fastkml/kml_base.py:97-114
  | ._Feature => [((s% "id"), (s% "id"), .repr),
    ((s% "target_id"), (s% "target_id"), .repr)]
  -- fastkml/features.py:615-648
  | .Placemark => [((s% "id"), (s% "id"), .repr),
    ((s% "target_id"), (s% "target_id"), .repr),
    ((s% "name"), (s% "name"), .repr),
    ((s% "visibility"), (s% "visibility"), .repr),
    ((s% "isopen"), (s% "isopen"), .repr),
    ((s% "atom_link"), (s% "atom_link"), .repr),
    ((s% "atom_author"), (s% "atom_author"), .repr),
    ((s% "address"), (s% "address"), .repr),
    ((s% "phone_number"), (s% "phone_number"), .repr),
    ((s% "snippet"), (s% "snippet"), .repr),
    ((s% "description"), (s% "description"), .repr),
    ((s% "view"), (s% "view"), .repr),
    ((s% "times"), (s% "times"), .repr),
    ((s% "style_url"), (s% "style_url"), .repr),
    ((s% "styles"), (s% "styles"), .repr),
    ((s% "region"), (s% "region"), .repr),
    ((s% "extended_data"), (s% "extended_data"), .repr),
    ((s% "kml_geometry"), (s% "kml_geometry"), .repr)]
  -- fastkml/features.py:844-879
  | .NetworkLink => [((s% "id"), (s% "id"), .repr),
    ((s% "target_id"), (s% "target_id"), .repr),
    ((s% "name"), (s% "name"), .repr),
    ((s% "visibility"), (s% "visibility"), .repr),
    ((s% "isopen"), (s% "isopen"), .repr),
    ((s% "atom_link"), (s% "atom_link"), .repr),
    ((s% "atom_author"), (s% "atom_author"), .repr),
    ((s% "address"), (s% "address"), .repr),
    ((s% "phone_number"), (s% "phone_number"), .repr),
    ((s% "snippet"), (s% "snippet"), .repr),
    ((s% "description"), (s% "description"), .repr),
    ((s% "view"), (s% "view"), .repr),
    ((s% "times"), (s% "times"), .repr),
    ((s% "style_url"), (s% "style_url"), .repr),
    ((s% "styles"), (s% "styles"), .repr),
    ((s% "region"), (s% "region"), .repr),
    ((s% "extended_data"), (s% "extended_data"), .repr),
    ((s% "refresh_visibility"), (s% "refresh_visibility"), .repr),
    ((s% "fly_to_view"), (s% "fly_to_view"), .repr),
    ((s% "link"), (s% "link"), .repr)]
  -- fastkml/kml_base.py:97-114
  | ._Overlay => [((s% "id"), (s% "id"), .repr),
    ((s% "target_id"), (s% "target_id"), .repr)]
  -- fastkml/overlays.py:345-358
  | .ViewVolume => [((s% "left_fov"), (s% "left_fov"), .repr),
    ((s% "right_fov"), (s% "right_fov"), .repr),
    ((s% "bottom_fov"), (s% "bottom_fov"), .repr),
    ((s% "top_fov"), (s% "top_fov"), .repr),
    ((s% "near"), (s% "near"), .repr)]
  -- fastkml/overlays.py:524-536
  | .ImagePyramid => [((s% "tile_size"), (s% "tile_size"), .repr),
    ((s% "max_width"), (s% "max_width"), .repr),
    ((s% "max_height"), (s% "max_height"), .repr),
    ((s% "grid_origin"), (s% "grid_origin"), .str)]
  -- fastkml/overlays.py:785-818
  | .PhotoOverlay => [((s% "id"), (s% "id"), .repr),
    ((s% "target_id"), (s% "target_id"), .repr),
    ((s% "name"), (s% "name"), .repr),
    ((s% "visibility"), (s% "visibility"), .repr),
    ((s% "isopen"), (s% "isopen"), .repr),
    ((s% "atom_link"), (s% "atom_link"), .repr),
    ((s% "atom_author"), (s% "atom_author"), .repr),
    ((s% "address"), (s% "address"), .repr),
    ((s% "phone_number"), (s% "phone_number"), .repr),
    ((s% "snippet"), (s% "snippet"), .repr),
    ((s% "description"), (s% "description"), .repr),
    ((s% "view"), (s% "view"), .repr),
    ((s% "times"), (s% "times"), .repr),
    ((s% "style_url"), (s% "style_url"), .repr),
    ((s% "styles"), (s% "styles"), .repr),
    ((s% "region"), (s% "region"), .repr),
    ((s% "extended_data"), (s% "extended_data"), .repr),
    ((s% "color"), (s% "color"), .repr),
    ((s% "draw_order"), (s% "draw_order"), .repr),
    ((s% "icon"), (s% "icon"), .repr),
    ((s% "rotation"), (s% "rotation"), .repr),
    ((s% "view_volume"), (s% "view_volume"), .repr),
    ((s% "image_pyramid"), (s% "image_pyramid"), .repr),
    ((s% "point"), (s% "point"), .repr),
    ((s% "shape"), (s% "shape"), .str)]
  -- fastkml/overlays.py:958-971
  | .LatLonBox => [((s% "north"), (s% "north"), .repr),
    ((s% "south"), (s% "south"), .repr),
    ((s% "east"), (s% "east"), .repr),
    ((s% "west"), (s% "west"), .repr),
    ((s% "rotation"), (s% "rotation"), .repr)]
  -- fastkml/overlays.py:1207-1238
  | .GroundOverlay => [((s% "id"), (s% "id"), .repr),
    ((s% "target_id"), (s% "target_id"), .repr),
    ((s% "name"), (s% "name"), .repr),
    ((s% "visibility"), (s% "visibility"), .repr),
    ((s% "isopen"), (s% "isopen"), .repr),
    ((s% "atom_link"), (s% "atom_link"), .repr),
    ((s% "atom_author"), (s% "atom_author"), .repr),
    ((s% "address"), (s% "address"), .repr),
    ((s% "phone_number"), (s% "phone_number"), .repr),
    ((s% "snippet"), (s% "snippet"), .repr),
    ((s% "description"), (s% "description"), .repr),
    ((s% "view"), (s% "view"), .repr),
    ((s% "times"), (s% "times"), .repr),
    ((s% "style_url"), (s% "style_url"), .repr),
    ((s% "styles"), (s% "styles"), .repr),
    ((s% "region"), (s% "region"), .repr),
    ((s% "extended_data"), (s% "extended_data"), .repr),
    ((s% "color"), (s% "color"), .repr),
    ((s% "draw_order"), (s% "draw_order"), .repr),
    ((s% "icon"), (s% "icon"), .repr),
    ((s% "altitude"), (s% "altitude"), .repr),
    ((s% "altitude_mode"), (s% "altitude_mode"), .str),
    ((s% "lat_lon_box"), (s% "lat_lon_box"), .repr)]
  -- fastkml/overlays.py:1326-1338
  | ._XY => [((s% "x"), (s% "x"), .repr),
    ((s% "y"), (s% "y"), .repr),
    ((s% "x_units"), (s% "x_units"), .str),
    ((s% "y_units"), (s% "y_units"), .str)]
  -- fastkml/overlays.py:1326-1338
  | .OverlayXY => [((s% "x"), (s% "x"), .repr),
    ((s% "y"), (s% "y"), .repr),
    ((s% "x_units"), (s% "x_units"), .str),
    ((s% "y_units"), (s% "y_units"), .str)]
  -- fastkml/overlays.py:1326-1338
  | .ScreenXY => [((s% "x"), (s% "x"), .repr),
    ((s% "y"), (s% "y"), .repr),
    ((s% "x_units"), (s% "x_units"), .str),
    ((s% "y_units"), (s% "y_units"), .str)]
  -- fastkml/overlays.py:1326-1338
  | .RotationXY => [((s% "x"), (s% "x"), .repr),
    ((s% "y"), (s% "y"), .repr),
    ((s% "x_units"), (s% "x_units"), .str),
    ((s% "y_units"), (s% "y_units"), .str)]
  -- fastkml/overlays.py:1326-1338
  | .Size => [((s% "x"), (s% "x"), .repr),
    ((s% "y"), (s% "y"), .repr),
    ((s% "x_units"), (s% "x_units"), .str),
    ((s% "y_units"), (s% "y_units"), .str)]
  -- fastkml/overlays.py:1586-1619
  | .ScreenOverlay => [((s% "id"), (s% "id"), .repr),
    ((s% "target_id"), (s% "target_id"), .repr),
    ((s% "name"), (s% "name"), .repr),
    ((s% "visibility"), (s% "visibility"), .repr),
    ((s% "isopen"), (s% "isopen"), .repr),
    ((s% "atom_link"), (s% "atom_link"), .repr),
    ((s% "atom_author"), (s% "atom_author"), .repr),
    ((s% "address"), (s% "address"), .repr),
    ((s% "phone_number"), (s% "phone_number"), .repr),
    ((s% "snippet"), (s% "snippet"), .repr),
    ((s% "description"), (s% "description"), .repr),
    ((s% "view"), (s% "view"), .repr),
    ((s% "times"), (s% "times"), .repr),
    ((s% "style_url"), (s% "style_url"), .repr),
    ((s% "styles"), (s% "styles"), .repr),
    ((s% "region"), (s% "region"), .repr),
    ((s% "extended_data"), (s% "extended_data"), .repr),
    ((s% "color"), (s% "color"), .repr),
    ((s% "draw_order"), (s% "draw_order"), .repr),
    ((s% "icon"), (s% "icon"), .repr),
    ((s% "overlay_xy"), (s% "overlay_xy"), .repr),
    ((s% "screen_xy"), (s% "screen_xy"), .repr),
    ((s% "rotation_xy"), (s% "rotation_xy"), .repr),
    ((s% "size"), (s% "size"), .repr),
    ((s% "rotation"), (s% "rotation"), .repr)]
  -- fastkml/containers.py:133-159
  | ._Container => [((s% "id"), (s% "id"), .repr),
    ((s% "target_id"), (s% "target_id"), .repr),
    ((s% "name"), (s% "name"), .repr),
    ((s% "visibility"), (s% "visibility"), .repr),
    ((s% "isopen"), (s% "isopen"), .repr),
    ((s% "atom_link"), (s% "atom_link"), .repr),
    ((s% "atom_author"), (s% "atom_author"), .repr),
    ((s% "address"), (s% "address"), .repr),
    ((s% "phone_number"), (s% "phone_number"), .repr),
    ((s% "snippet"), (s% "snippet"), .repr),
    ((s% "description"), (s% "description"), .repr),
    ((s% "view"), (s% "view"), .repr),
    ((s% "times"), (s% "times"), .repr),
    ((s% "style_url"), (s% "style_url"), .repr),
    ((s% "styles"), (s% "styles"), .repr),
    ((s% "region"), (s% "region"), .repr),
    ((s% "extended_data"), (s% "extended_data"), .repr),
    ((s% "features"), (s% "features"), .repr)]
  -- fastkml/containers.py:133-159
  | .Folder => [((s% "id"), (s% "id"), .repr),
    ((s% "target_id"), (s% "target_id"), .repr),
    ((s% "name"), (s% "name"), .repr),
    ((s% "visibility"), (s% "visibility"), .repr),
    ((s% "isopen"), (s% "isopen"), .repr),
    ((s% "atom_link"), (s% "atom_link"), .repr),
    ((s% "atom_author"), (s% "atom_author"), .repr),
    ((s% "address"), (s% "address"), .repr),
    ((s% "phone_number"), (s% "phone_number"), .repr),
    ((s% "snippet"), (s% "snippet"), .repr),
    ((s% "description"), (s% "description"), .repr),
    ((s% "view"), (s% "view"), .repr),
    ((s% "times"), (s% "times"), .repr),
    ((s% "style_url"), (s% "style_url"), .repr),
    ((s% "styles"), (s% "styles"), .repr),
    ((s% "region"), (s% "region"), .repr),
    ((s% "extended_data"), (s% "extended_data"), .repr),
    ((s% "features"), (s% "features"), .repr)]
  -- fastkml/containers.py:274-301
  | .Document => [((s% "id"), (s% "id"), .repr),
    ((s% "target_id"), (s% "target_id"), .repr),
    ((s% "name"), (s% "name"), .repr),
    ((s% "visibility"), (s% "visibility"), .repr),
    ((s% "isopen"), (s% "isopen"), .repr),
    ((s% "atom_link"), (s% "atom_link"), .repr),
    ((s% "atom_author"), (s% "atom_author"), .repr),
    ((s% "address"), (s% "address"), .repr),
    ((s% "phone_number"), (s% "phone_number"), .repr),
    ((s% "snippet"), (s% "snippet"), .repr),
    ((s% "description"), (s% "description"), .repr),
    ((s% "view"), (s% "view"), .repr),
    ((s% "times"), (s% "times"), .repr),
    ((s% "style_url"), (s% "style_url"), .repr),
    ((s% "styles"), (s% "styles"), .repr),
    ((s% "region"), (s% "region"), .repr),
    ((s% "extended_data"), (s% "extended_data"), .repr),
    ((s% "features"), (s% "features"), .repr),
    ((s% "schemata"), (s% "schemata"), .repr)]
  -- fastkml/network_link_control.py:131-155
  | .NetworkLinkControl => [((s% "min_refresh_period"), (s% "min_refresh_period"), .repr),
    ((s% "max_session_length"), (s% "max_session_length"), .repr),
    ((s% "cookie"), (s% "cookie"), .repr),
    ((s% "message"), (s% "message"), .repr),
    ((s% "link_name"), (s% "link_name"), .repr),
    ((s% "link_description"), (s% "link_description"), .repr),
    ((s% "link_snippet"), (s% "link_snippet"), .repr),
    ((s% "expires"), (s% "expires"), .repr),
    ((s% "view"), (s% "view"), .repr)]
  -- fastkml/kml.py:139-148
  | .KML => [((s% "features"), (s% "features"), .repr)]

end Verif
