import Verif.XsdTypes

/-!
# The XML schemas

Generated by tools/xsd2lean.py from /repo/fastkml/schema: the element declarations,
complex types and enumerations of ogckml22.xsd, kml22gx.xsd and atom-author-link.xsd.
-/

namespace Verif

open QN
/-- The element declarations, in the order of the files. -/
def xsdElems : List XElem := [
  -- fastkml/schema/ogckml22.xsd:192
  ⟨.q .kml (s% "address"), (.some (.q .xs (s% "string"))), .none, false, .none⟩,
  -- fastkml/schema/ogckml22.xsd:193
  ⟨.q .kml (s% "altitude"), (.some (.q .xs (s% "double"))), .none, false, (.some (s% "0.0"))⟩,
  -- fastkml/schema/ogckml22.xsd:194
  ⟨.q .kml (s% "altitudeModeGroup"), .none, .none, true, .none⟩,
  -- fastkml/schema/ogckml22.xsd:195-196
  ⟨.q .kml (s% "altitudeMode"), (.some (.q .kml (s% "altitudeModeEnumType"))), (.some (.q .kml (s% "altitudeModeGroup"))), false, (.some (s% "clampToGround"))⟩,
  -- fastkml/schema/ogckml22.xsd:197
  ⟨.q .kml (s% "begin"), (.some (.q .kml (s% "dateTimeType"))), .none, false, .none⟩,
  -- fastkml/schema/ogckml22.xsd:198
  ⟨.q .kml (s% "bgColor"), (.some (.q .kml (s% "colorType"))), .none, false, (.some (s% "ffffffff"))⟩,
  -- fastkml/schema/ogckml22.xsd:199
  ⟨.q .kml (s% "bottomFov"), (.some (.q .kml (s% "angle90Type"))), .none, false, (.some (s% "0.0"))⟩,
  -- fastkml/schema/ogckml22.xsd:200
  ⟨.q .kml (s% "color"), (.some (.q .kml (s% "colorType"))), .none, false, (.some (s% "ffffffff"))⟩,
  -- fastkml/schema/ogckml22.xsd:201
  ⟨.q .kml (s% "colorMode"), (.some (.q .kml (s% "colorModeEnumType"))), .none, false, (.some (s% "normal"))⟩,
  -- fastkml/schema/ogckml22.xsd:202
  ⟨.q .kml (s% "cookie"), (.some (.q .xs (s% "string"))), .none, false, .none⟩,
  -- fastkml/schema/ogckml22.xsd:203
  ⟨.q .kml (s% "coordinates"), (.some (.q .kml (s% "coordinatesType"))), .none, false, .none⟩,
  -- fastkml/schema/ogckml22.xsd:204
  ⟨.q .kml (s% "description"), (.some (.q .xs (s% "string"))), .none, false, .none⟩,
  -- fastkml/schema/ogckml22.xsd:205
  ⟨.q .kml (s% "displayName"), (.some (.q .xs (s% "string"))), .none, false, .none⟩,
  -- fastkml/schema/ogckml22.xsd:206
  ⟨.q .kml (s% "displayMode"), (.some (.q .kml (s% "displayModeEnumType"))), .none, false, (.some (s% "default"))⟩,
  -- fastkml/schema/ogckml22.xsd:207
  ⟨.q .kml (s% "drawOrder"), (.some (.q .xs (s% "int"))), .none, false, (.some (s% "0"))⟩,
  -- fastkml/schema/ogckml22.xsd:208
  ⟨.q .kml (s% "east"), (.some (.q .kml (s% "angle180Type"))), .none, false, (.some (s% "180.0"))⟩,
  -- fastkml/schema/ogckml22.xsd:209
  ⟨.q .kml (s% "end"), (.some (.q .kml (s% "dateTimeType"))), .none, false, .none⟩,
  -- fastkml/schema/ogckml22.xsd:210
  ⟨.q .kml (s% "expires"), (.some (.q .kml (s% "dateTimeType"))), .none, false, .none⟩,
  -- fastkml/schema/ogckml22.xsd:211
  ⟨.q .kml (s% "extrude"), (.some (.q .xs (s% "boolean"))), .none, false, (.some (s% "0"))⟩,
  -- fastkml/schema/ogckml22.xsd:212
  ⟨.q .kml (s% "fill"), (.some (.q .xs (s% "boolean"))), .none, false, (.some (s% "1"))⟩,
  -- fastkml/schema/ogckml22.xsd:213
  ⟨.q .kml (s% "flyToView"), (.some (.q .xs (s% "boolean"))), .none, false, (.some (s% "0"))⟩,
  -- fastkml/schema/ogckml22.xsd:214
  ⟨.q .kml (s% "gridOrigin"), (.some (.q .kml (s% "gridOriginEnumType"))), .none, false, (.some (s% "lowerLeft"))⟩,
  -- fastkml/schema/ogckml22.xsd:215
  ⟨.q .kml (s% "heading"), (.some (.q .kml (s% "angle360Type"))), .none, false, (.some (s% "0.0"))⟩,
  -- fastkml/schema/ogckml22.xsd:216-221
  ⟨.q .kml (s% "href"), (.some (.q .xs (s% "string"))), .none, false, .none⟩,
  -- fastkml/schema/ogckml22.xsd:222
  ⟨.q .kml (s% "httpQuery"), (.some (.q .xs (s% "string"))), .none, false, .none⟩,
  -- fastkml/schema/ogckml22.xsd:223
  ⟨.q .kml (s% "hotSpot"), (.some (.q .kml (s% "vec2Type"))), .none, false, .none⟩,
  -- fastkml/schema/ogckml22.xsd:224
  ⟨.q .kml (s% "key"), (.some (.q .kml (s% "styleStateEnumType"))), .none, false, (.some (s% "normal"))⟩,
  -- fastkml/schema/ogckml22.xsd:225
  ⟨.q .kml (s% "latitude"), (.some (.q .kml (s% "angle90Type"))), .none, false, (.some (s% "0.0"))⟩,
  -- fastkml/schema/ogckml22.xsd:226
  ⟨.q .kml (s% "leftFov"), (.some (.q .kml (s% "angle180Type"))), .none, false, (.some (s% "0.0"))⟩,
  -- fastkml/schema/ogckml22.xsd:227
  ⟨.q .kml (s% "linkDescription"), (.some (.q .xs (s% "string"))), .none, false, .none⟩,
  -- fastkml/schema/ogckml22.xsd:228
  ⟨.q .kml (s% "linkName"), (.some (.q .xs (s% "string"))), .none, false, .none⟩,
  -- fastkml/schema/ogckml22.xsd:229
  ⟨.q .kml (s% "linkSnippet"), (.some (.q .kml (s% "SnippetType"))), .none, false, .none⟩,
  -- fastkml/schema/ogckml22.xsd:230
  ⟨.q .kml (s% "listItemType"), (.some (.q .kml (s% "listItemTypeEnumType"))), .none, false, (.some (s% "check"))⟩,
  -- fastkml/schema/ogckml22.xsd:231
  ⟨.q .kml (s% "longitude"), (.some (.q .kml (s% "angle180Type"))), .none, false, (.some (s% "0.0"))⟩,
  -- fastkml/schema/ogckml22.xsd:232
  ⟨.q .kml (s% "maxSnippetLines"), (.some (.q .xs (s% "int"))), .none, false, (.some (s% "2"))⟩,
  -- fastkml/schema/ogckml22.xsd:233
  ⟨.q .kml (s% "maxSessionLength"), (.some (.q .xs (s% "double"))), .none, false, (.some (s% "-1.0"))⟩,
  -- fastkml/schema/ogckml22.xsd:234
  ⟨.q .kml (s% "message"), (.some (.q .xs (s% "string"))), .none, false, .none⟩,
  -- fastkml/schema/ogckml22.xsd:235
  ⟨.q .kml (s% "minAltitude"), (.some (.q .xs (s% "double"))), .none, false, (.some (s% "0.0"))⟩,
  -- fastkml/schema/ogckml22.xsd:236
  ⟨.q .kml (s% "minFadeExtent"), (.some (.q .xs (s% "double"))), .none, false, (.some (s% "0.0"))⟩,
  -- fastkml/schema/ogckml22.xsd:237
  ⟨.q .kml (s% "minLodPixels"), (.some (.q .xs (s% "double"))), .none, false, (.some (s% "0.0"))⟩,
  -- fastkml/schema/ogckml22.xsd:238
  ⟨.q .kml (s% "minRefreshPeriod"), (.some (.q .xs (s% "double"))), .none, false, (.some (s% "0.0"))⟩,
  -- fastkml/schema/ogckml22.xsd:239
  ⟨.q .kml (s% "maxAltitude"), (.some (.q .xs (s% "double"))), .none, false, (.some (s% "0.0"))⟩,
  -- fastkml/schema/ogckml22.xsd:240
  ⟨.q .kml (s% "maxFadeExtent"), (.some (.q .xs (s% "double"))), .none, false, (.some (s% "0.0"))⟩,
  -- fastkml/schema/ogckml22.xsd:241
  ⟨.q .kml (s% "maxLodPixels"), (.some (.q .xs (s% "double"))), .none, false, (.some (s% "-1.0"))⟩,
  -- fastkml/schema/ogckml22.xsd:242
  ⟨.q .kml (s% "maxHeight"), (.some (.q .xs (s% "int"))), .none, false, (.some (s% "0"))⟩,
  -- fastkml/schema/ogckml22.xsd:243
  ⟨.q .kml (s% "maxWidth"), (.some (.q .xs (s% "int"))), .none, false, (.some (s% "0"))⟩,
  -- fastkml/schema/ogckml22.xsd:244
  ⟨.q .kml (s% "name"), (.some (.q .xs (s% "string"))), .none, false, .none⟩,
  -- fastkml/schema/ogckml22.xsd:245
  ⟨.q .kml (s% "near"), (.some (.q .xs (s% "double"))), .none, false, (.some (s% "0.0"))⟩,
  -- fastkml/schema/ogckml22.xsd:246
  ⟨.q .kml (s% "north"), (.some (.q .kml (s% "angle180Type"))), .none, false, (.some (s% "180.0"))⟩,
  -- fastkml/schema/ogckml22.xsd:247
  ⟨.q .kml (s% "open"), (.some (.q .xs (s% "boolean"))), .none, false, (.some (s% "0"))⟩,
  -- fastkml/schema/ogckml22.xsd:248
  ⟨.q .kml (s% "outline"), (.some (.q .xs (s% "boolean"))), .none, false, (.some (s% "1"))⟩,
  -- fastkml/schema/ogckml22.xsd:249
  ⟨.q .kml (s% "overlayXY"), (.some (.q .kml (s% "vec2Type"))), .none, false, .none⟩,
  -- fastkml/schema/ogckml22.xsd:250
  ⟨.q .kml (s% "phoneNumber"), (.some (.q .xs (s% "string"))), .none, false, .none⟩,
  -- fastkml/schema/ogckml22.xsd:251
  ⟨.q .kml (s% "range"), (.some (.q .xs (s% "double"))), .none, false, (.some (s% "0.0"))⟩,
  -- fastkml/schema/ogckml22.xsd:252-253
  ⟨.q .kml (s% "refreshMode"), (.some (.q .kml (s% "refreshModeEnumType"))), .none, false, (.some (s% "onChange"))⟩,
  -- fastkml/schema/ogckml22.xsd:254
  ⟨.q .kml (s% "refreshInterval"), (.some (.q .xs (s% "double"))), .none, false, (.some (s% "4.0"))⟩,
  -- fastkml/schema/ogckml22.xsd:255
  ⟨.q .kml (s% "refreshVisibility"), (.some (.q .xs (s% "boolean"))), .none, false, (.some (s% "0"))⟩,
  -- fastkml/schema/ogckml22.xsd:256
  ⟨.q .kml (s% "rightFov"), (.some (.q .kml (s% "angle180Type"))), .none, false, (.some (s% "0.0"))⟩,
  -- fastkml/schema/ogckml22.xsd:257
  ⟨.q .kml (s% "roll"), (.some (.q .kml (s% "angle180Type"))), .none, false, (.some (s% "0.0"))⟩,
  -- fastkml/schema/ogckml22.xsd:258
  ⟨.q .kml (s% "rotation"), (.some (.q .kml (s% "angle180Type"))), .none, false, (.some (s% "0.0"))⟩,
  -- fastkml/schema/ogckml22.xsd:259
  ⟨.q .kml (s% "rotationXY"), (.some (.q .kml (s% "vec2Type"))), .none, false, .none⟩,
  -- fastkml/schema/ogckml22.xsd:260
  ⟨.q .kml (s% "scale"), (.some (.q .xs (s% "double"))), .none, false, (.some (s% "1.0"))⟩,
  -- fastkml/schema/ogckml22.xsd:261
  ⟨.q .kml (s% "screenXY"), (.some (.q .kml (s% "vec2Type"))), .none, false, .none⟩,
  -- fastkml/schema/ogckml22.xsd:262
  ⟨.q .kml (s% "shape"), (.some (.q .kml (s% "shapeEnumType"))), .none, false, (.some (s% "rectangle"))⟩,
  -- fastkml/schema/ogckml22.xsd:263
  ⟨.q .kml (s% "size"), (.some (.q .kml (s% "vec2Type"))), .none, false, .none⟩,
  -- fastkml/schema/ogckml22.xsd:264
  ⟨.q .kml (s% "south"), (.some (.q .kml (s% "angle180Type"))), .none, false, (.some (s% "-180.0"))⟩,
  -- fastkml/schema/ogckml22.xsd:265
  ⟨.q .kml (s% "sourceHref"), (.some (.q .xs (s% "anyURI"))), .none, false, .none⟩,
  -- fastkml/schema/ogckml22.xsd:266
  ⟨.q .kml (s% "snippet"), (.some (.q .xs (s% "string"))), .none, false, .none⟩,
  -- fastkml/schema/ogckml22.xsd:267
  ⟨.q .kml (s% "state"), (.some (.q .kml (s% "itemIconStateType"))), .none, false, .none⟩,
  -- fastkml/schema/ogckml22.xsd:268
  ⟨.q .kml (s% "styleUrl"), (.some (.q .xs (s% "anyURI"))), .none, false, .none⟩,
  -- fastkml/schema/ogckml22.xsd:269
  ⟨.q .kml (s% "targetHref"), (.some (.q .xs (s% "anyURI"))), .none, false, .none⟩,
  -- fastkml/schema/ogckml22.xsd:270
  ⟨.q .kml (s% "tessellate"), (.some (.q .xs (s% "boolean"))), .none, false, (.some (s% "0"))⟩,
  -- fastkml/schema/ogckml22.xsd:271
  ⟨.q .kml (s% "text"), (.some (.q .xs (s% "string"))), .none, false, .none⟩,
  -- fastkml/schema/ogckml22.xsd:272
  ⟨.q .kml (s% "textColor"), (.some (.q .kml (s% "colorType"))), .none, false, (.some (s% "ff000000"))⟩,
  -- fastkml/schema/ogckml22.xsd:273
  ⟨.q .kml (s% "tileSize"), (.some (.q .xs (s% "int"))), .none, false, (.some (s% "256"))⟩,
  -- fastkml/schema/ogckml22.xsd:274
  ⟨.q .kml (s% "tilt"), (.some (.q .kml (s% "anglepos180Type"))), .none, false, (.some (s% "0.0"))⟩,
  -- fastkml/schema/ogckml22.xsd:275
  ⟨.q .kml (s% "topFov"), (.some (.q .kml (s% "angle90Type"))), .none, false, (.some (s% "0.0"))⟩,
  -- fastkml/schema/ogckml22.xsd:276
  ⟨.q .kml (s% "value"), (.some (.q .xs (s% "string"))), .none, false, .none⟩,
  -- fastkml/schema/ogckml22.xsd:277
  ⟨.q .kml (s% "viewBoundScale"), (.some (.q .xs (s% "double"))), .none, false, (.some (s% "1.0"))⟩,
  -- fastkml/schema/ogckml22.xsd:278
  ⟨.q .kml (s% "viewFormat"), (.some (.q .xs (s% "string"))), .none, false, .none⟩,
  -- fastkml/schema/ogckml22.xsd:279-280
  ⟨.q .kml (s% "viewRefreshMode"), (.some (.q .kml (s% "viewRefreshModeEnumType"))), .none, false, (.some (s% "never"))⟩,
  -- fastkml/schema/ogckml22.xsd:281
  ⟨.q .kml (s% "viewRefreshTime"), (.some (.q .xs (s% "double"))), .none, false, (.some (s% "4.0"))⟩,
  -- fastkml/schema/ogckml22.xsd:282
  ⟨.q .kml (s% "visibility"), (.some (.q .xs (s% "boolean"))), .none, false, (.some (s% "1"))⟩,
  -- fastkml/schema/ogckml22.xsd:283
  ⟨.q .kml (s% "west"), (.some (.q .kml (s% "angle180Type"))), .none, false, (.some (s% "-180.0"))⟩,
  -- fastkml/schema/ogckml22.xsd:284
  ⟨.q .kml (s% "when"), (.some (.q .kml (s% "dateTimeType"))), .none, false, .none⟩,
  -- fastkml/schema/ogckml22.xsd:285
  ⟨.q .kml (s% "width"), (.some (.q .xs (s% "double"))), .none, false, (.some (s% "1.0"))⟩,
  -- fastkml/schema/ogckml22.xsd:286
  ⟨.q .kml (s% "x"), (.some (.q .xs (s% "double"))), .none, false, (.some (s% "1.0"))⟩,
  -- fastkml/schema/ogckml22.xsd:287
  ⟨.q .kml (s% "y"), (.some (.q .xs (s% "double"))), .none, false, (.some (s% "1.0"))⟩,
  -- fastkml/schema/ogckml22.xsd:288
  ⟨.q .kml (s% "z"), (.some (.q .xs (s% "double"))), .none, false, (.some (s% "1.0"))⟩,
  -- fastkml/schema/ogckml22.xsd:290-291
  ⟨.q .kml (s% "AbstractObjectGroup"), (.some (.q .kml (s% "AbstractObjectType"))), .none, true, .none⟩,
  -- fastkml/schema/ogckml22.xsd:299-300
  ⟨.q .kml (s% "ObjectSimpleExtensionGroup"), (.some (.q .xs (s% "anySimpleType"))), .none, true, .none⟩,
  -- fastkml/schema/ogckml22.xsd:307-308
  ⟨.q .kml (s% "AbstractFeatureGroup"), (.some (.q .kml (s% "AbstractFeatureType"))), (.some (.q .kml (s% "AbstractObjectGroup"))), true, .none⟩,
  -- fastkml/schema/ogckml22.xsd:350-351
  ⟨.q .kml (s% "AbstractFeatureObjectExtensionGroup"), .none, (.some (.q .kml (s% "AbstractObjectGroup"))), true, .none⟩,
  -- fastkml/schema/ogckml22.xsd:352-353
  ⟨.q .kml (s% "AbstractFeatureSimpleExtensionGroup"), (.some (.q .xs (s% "anySimpleType"))), .none, true, .none⟩,
  -- fastkml/schema/ogckml22.xsd:355
  ⟨.q .kml (s% "Snippet"), (.some (.q .kml (s% "SnippetType"))), .none, false, .none⟩,
  -- fastkml/schema/ogckml22.xsd:364-365
  ⟨.q .kml (s% "AbstractViewGroup"), (.some (.q .kml (s% "AbstractViewType"))), (.some (.q .kml (s% "AbstractObjectGroup"))), true, .none⟩,
  -- fastkml/schema/ogckml22.xsd:378-379
  ⟨.q .kml (s% "AbstractViewSimpleExtensionGroup"), (.some (.q .xs (s% "anySimpleType"))), .none, true, .none⟩,
  -- fastkml/schema/ogckml22.xsd:380-381
  ⟨.q .kml (s% "AbstractViewObjectExtensionGroup"), .none, (.some (.q .kml (s% "AbstractObjectGroup"))), true, .none⟩,
  -- fastkml/schema/ogckml22.xsd:383-384
  ⟨.q .kml (s% "LookAt"), (.some (.q .kml (s% "LookAtType"))), (.some (.q .kml (s% "AbstractViewGroup"))), false, .none⟩,
  -- fastkml/schema/ogckml22.xsd:404-405
  ⟨.q .kml (s% "LookAtSimpleExtensionGroup"), (.some (.q .xs (s% "anySimpleType"))), .none, true, .none⟩,
  -- fastkml/schema/ogckml22.xsd:406-407
  ⟨.q .kml (s% "LookAtObjectExtensionGroup"), .none, (.some (.q .kml (s% "AbstractObjectGroup"))), true, .none⟩,
  -- fastkml/schema/ogckml22.xsd:409-410
  ⟨.q .kml (s% "Camera"), (.some (.q .kml (s% "CameraType"))), (.some (.q .kml (s% "AbstractViewGroup"))), false, .none⟩,
  -- fastkml/schema/ogckml22.xsd:430-431
  ⟨.q .kml (s% "CameraSimpleExtensionGroup"), (.some (.q .xs (s% "anySimpleType"))), .none, true, .none⟩,
  -- fastkml/schema/ogckml22.xsd:432-433
  ⟨.q .kml (s% "CameraObjectExtensionGroup"), .none, (.some (.q .kml (s% "AbstractObjectGroup"))), true, .none⟩,
  -- fastkml/schema/ogckml22.xsd:435-439
  ⟨.q .kml (s% "Metadata"), (.some (.q .kml (s% "MetadataType"))), .none, false, .none⟩,
  -- fastkml/schema/ogckml22.xsd:451
  ⟨.q .kml (s% "ExtendedData"), (.some (.q .kml (s% "ExtendedDataType"))), .none, false, .none⟩,
  -- fastkml/schema/ogckml22.xsd:461-462
  ⟨.q .kml (s% "SchemaData"), (.some (.q .kml (s% "SchemaDataType"))), (.some (.q .kml (s% "AbstractObjectGroup"))), false, .none⟩,
  -- fastkml/schema/ogckml22.xsd:475
  ⟨.q .kml (s% "SchemaDataExtension"), .none, .none, true, .none⟩,
  -- fastkml/schema/ogckml22.xsd:477
  ⟨.q .kml (s% "SimpleData"), (.some (.q .kml (s% "SimpleDataType"))), .none, false, .none⟩,
  -- fastkml/schema/ogckml22.xsd:486-487
  ⟨.q .kml (s% "Data"), (.some (.q .kml (s% "DataType"))), (.some (.q .kml (s% "AbstractObjectGroup"))), false, .none⟩,
  -- fastkml/schema/ogckml22.xsd:500
  ⟨.q .kml (s% "DataExtension"), .none, .none, true, .none⟩,
  -- fastkml/schema/ogckml22.xsd:502-503
  ⟨.q .kml (s% "AbstractContainerGroup"), (.some (.q .kml (s% "AbstractContainerType"))), (.some (.q .kml (s% "AbstractFeatureGroup"))), true, .none⟩,
  -- fastkml/schema/ogckml22.xsd:516-517
  ⟨.q .kml (s% "AbstractContainerSimpleExtensionGroup"), (.some (.q .xs (s% "anySimpleType"))), .none, true, .none⟩,
  -- fastkml/schema/ogckml22.xsd:518-519
  ⟨.q .kml (s% "AbstractContainerObjectExtensionGroup"), .none, (.some (.q .kml (s% "AbstractObjectGroup"))), true, .none⟩,
  -- fastkml/schema/ogckml22.xsd:521-522
  ⟨.q .kml (s% "AbstractGeometryGroup"), (.some (.q .kml (s% "AbstractGeometryType"))), (.some (.q .kml (s% "AbstractObjectGroup"))), true, .none⟩,
  -- fastkml/schema/ogckml22.xsd:535-536
  ⟨.q .kml (s% "AbstractGeometrySimpleExtensionGroup"), (.some (.q .xs (s% "anySimpleType"))), .none, true, .none⟩,
  -- fastkml/schema/ogckml22.xsd:537-538
  ⟨.q .kml (s% "AbstractGeometryObjectExtensionGroup"), .none, (.some (.q .kml (s% "AbstractObjectGroup"))), true, .none⟩,
  -- fastkml/schema/ogckml22.xsd:540-541
  ⟨.q .kml (s% "AbstractOverlayGroup"), (.some (.q .kml (s% "AbstractOverlayType"))), (.some (.q .kml (s% "AbstractFeatureGroup"))), true, .none⟩,
  -- fastkml/schema/ogckml22.xsd:557-558
  ⟨.q .kml (s% "AbstractOverlaySimpleExtensionGroup"), (.some (.q .xs (s% "anySimpleType"))), .none, true, .none⟩,
  -- fastkml/schema/ogckml22.xsd:559-560
  ⟨.q .kml (s% "AbstractOverlayObjectExtensionGroup"), .none, (.some (.q .kml (s% "AbstractObjectGroup"))), true, .none⟩,
  -- fastkml/schema/ogckml22.xsd:562-564
  ⟨.q .kml (s% "AbstractStyleSelectorGroup"), (.some (.q .kml (s% "AbstractStyleSelectorType"))), (.some (.q .kml (s% "AbstractObjectGroup"))), true, .none⟩,
  -- fastkml/schema/ogckml22.xsd:577-578
  ⟨.q .kml (s% "AbstractStyleSelectorSimpleExtensionGroup"), (.some (.q .xs (s% "anySimpleType"))), .none, true, .none⟩,
  -- fastkml/schema/ogckml22.xsd:579-580
  ⟨.q .kml (s% "AbstractStyleSelectorObjectExtensionGroup"), .none, (.some (.q .kml (s% "AbstractObjectGroup"))), true, .none⟩,
  -- fastkml/schema/ogckml22.xsd:582-584
  ⟨.q .kml (s% "AbstractTimePrimitiveGroup"), (.some (.q .kml (s% "AbstractTimePrimitiveType"))), (.some (.q .kml (s% "AbstractObjectGroup"))), true, .none⟩,
  -- fastkml/schema/ogckml22.xsd:597-598
  ⟨.q .kml (s% "AbstractTimePrimitiveSimpleExtensionGroup"), (.some (.q .xs (s% "anySimpleType"))), .none, true, .none⟩,
  -- fastkml/schema/ogckml22.xsd:599-600
  ⟨.q .kml (s% "AbstractTimePrimitiveObjectExtensionGroup"), .none, (.some (.q .kml (s% "AbstractObjectGroup"))), true, .none⟩,
  -- fastkml/schema/ogckml22.xsd:602-610
  ⟨.q .kml (s% "kml"), (.some (.q .kml (s% "KmlType"))), .none, false, .none⟩,
  -- fastkml/schema/ogckml22.xsd:622
  ⟨.q .kml (s% "KmlSimpleExtensionGroup"), (.some (.q .xs (s% "anySimpleType"))), .none, true, .none⟩,
  -- fastkml/schema/ogckml22.xsd:623-624
  ⟨.q .kml (s% "KmlObjectExtensionGroup"), .none, (.some (.q .kml (s% "AbstractObjectGroup"))), true, .none⟩,
  -- fastkml/schema/ogckml22.xsd:626
  ⟨.q .kml (s% "NetworkLinkControl"), (.some (.q .kml (s% "NetworkLinkControlType"))), .none, false, .none⟩,
  -- fastkml/schema/ogckml22.xsd:645-646
  ⟨.q .kml (s% "NetworkLinkControlSimpleExtensionGroup"), (.some (.q .xs (s% "anySimpleType"))), .none, true, .none⟩,
  -- fastkml/schema/ogckml22.xsd:647-648
  ⟨.q .kml (s% "NetworkLinkControlObjectExtensionGroup"), .none, (.some (.q .kml (s% "AbstractObjectGroup"))), true, .none⟩,
  -- fastkml/schema/ogckml22.xsd:650-651
  ⟨.q .kml (s% "Document"), (.some (.q .kml (s% "DocumentType"))), (.some (.q .kml (s% "AbstractContainerGroup"))), false, .none⟩,
  -- fastkml/schema/ogckml22.xsd:667-668
  ⟨.q .kml (s% "DocumentSimpleExtensionGroup"), (.some (.q .xs (s% "anySimpleType"))), .none, true, .none⟩,
  -- fastkml/schema/ogckml22.xsd:669-670
  ⟨.q .kml (s% "DocumentObjectExtensionGroup"), .none, (.some (.q .kml (s% "AbstractObjectGroup"))), true, .none⟩,
  -- fastkml/schema/ogckml22.xsd:672
  ⟨.q .kml (s% "Schema"), (.some (.q .kml (s% "SchemaType"))), .none, false, .none⟩,
  -- fastkml/schema/ogckml22.xsd:681
  ⟨.q .kml (s% "SchemaExtension"), .none, .none, true, .none⟩,
  -- fastkml/schema/ogckml22.xsd:683
  ⟨.q .kml (s% "SimpleField"), (.some (.q .kml (s% "SimpleFieldType"))), .none, false, .none⟩,
  -- fastkml/schema/ogckml22.xsd:693
  ⟨.q .kml (s% "SimpleFieldExtension"), .none, .none, true, .none⟩,
  -- fastkml/schema/ogckml22.xsd:695-696
  ⟨.q .kml (s% "Folder"), (.some (.q .kml (s% "FolderType"))), (.some (.q .kml (s% "AbstractContainerGroup"))), false, .none⟩,
  -- fastkml/schema/ogckml22.xsd:711-712
  ⟨.q .kml (s% "FolderSimpleExtensionGroup"), (.some (.q .xs (s% "anySimpleType"))), .none, true, .none⟩,
  -- fastkml/schema/ogckml22.xsd:713-714
  ⟨.q .kml (s% "FolderObjectExtensionGroup"), .none, (.some (.q .kml (s% "AbstractObjectGroup"))), true, .none⟩,
  -- fastkml/schema/ogckml22.xsd:716-717
  ⟨.q .kml (s% "Placemark"), (.some (.q .kml (s% "PlacemarkType"))), (.some (.q .kml (s% "AbstractFeatureGroup"))), false, .none⟩,
  -- fastkml/schema/ogckml22.xsd:731-732
  ⟨.q .kml (s% "PlacemarkSimpleExtensionGroup"), (.some (.q .xs (s% "anySimpleType"))), .none, true, .none⟩,
  -- fastkml/schema/ogckml22.xsd:733-734
  ⟨.q .kml (s% "PlacemarkObjectExtensionGroup"), .none, (.some (.q .kml (s% "AbstractObjectGroup"))), true, .none⟩,
  -- fastkml/schema/ogckml22.xsd:736-737
  ⟨.q .kml (s% "NetworkLink"), (.some (.q .kml (s% "NetworkLinkType"))), (.some (.q .kml (s% "AbstractFeatureGroup"))), false, .none⟩,
  -- fastkml/schema/ogckml22.xsd:759-760
  ⟨.q .kml (s% "NetworkLinkSimpleExtensionGroup"), (.some (.q .xs (s% "anySimpleType"))), .none, true, .none⟩,
  -- fastkml/schema/ogckml22.xsd:761-762
  ⟨.q .kml (s% "NetworkLinkObjectExtensionGroup"), .none, (.some (.q .kml (s% "AbstractObjectGroup"))), true, .none⟩,
  -- fastkml/schema/ogckml22.xsd:764-765
  ⟨.q .kml (s% "Region"), (.some (.q .kml (s% "RegionType"))), (.some (.q .kml (s% "AbstractObjectGroup"))), false, .none⟩,
  -- fastkml/schema/ogckml22.xsd:780-781
  ⟨.q .kml (s% "RegionSimpleExtensionGroup"), (.some (.q .xs (s% "anySimpleType"))), .none, true, .none⟩,
  -- fastkml/schema/ogckml22.xsd:782-783
  ⟨.q .kml (s% "RegionObjectExtensionGroup"), .none, (.some (.q .kml (s% "AbstractObjectGroup"))), true, .none⟩,
  -- fastkml/schema/ogckml22.xsd:785-786
  ⟨.q .kml (s% "LatLonAltBox"), (.some (.q .kml (s% "LatLonAltBoxType"))), (.some (.q .kml (s% "AbstractObjectGroup"))), false, .none⟩,
  -- fastkml/schema/ogckml22.xsd:802-803
  ⟨.q .kml (s% "LatLonAltBoxSimpleExtensionGroup"), (.some (.q .xs (s% "anySimpleType"))), .none, true, .none⟩,
  -- fastkml/schema/ogckml22.xsd:804-805
  ⟨.q .kml (s% "LatLonAltBoxObjectExtensionGroup"), .none, (.some (.q .kml (s% "AbstractObjectGroup"))), true, .none⟩,
  -- fastkml/schema/ogckml22.xsd:807-808
  ⟨.q .kml (s% "Lod"), (.some (.q .kml (s% "LodType"))), (.some (.q .kml (s% "AbstractObjectGroup"))), false, .none⟩,
  -- fastkml/schema/ogckml22.xsd:825
  ⟨.q .kml (s% "LodSimpleExtensionGroup"), (.some (.q .xs (s% "anySimpleType"))), .none, true, .none⟩,
  -- fastkml/schema/ogckml22.xsd:826-827
  ⟨.q .kml (s% "LodObjectExtensionGroup"), .none, (.some (.q .kml (s% "AbstractObjectGroup"))), true, .none⟩,
  -- fastkml/schema/ogckml22.xsd:829-830
  ⟨.q .kml (s% "Icon"), (.some (.q .kml (s% "LinkType"))), (.some (.q .kml (s% "AbstractObjectGroup"))), false, .none⟩,
  -- fastkml/schema/ogckml22.xsd:831-832
  ⟨.q .kml (s% "Link"), (.some (.q .kml (s% "LinkType"))), (.some (.q .kml (s% "AbstractObjectGroup"))), false, .none⟩,
  -- fastkml/schema/ogckml22.xsd:833-838
  ⟨.q .kml (s% "Url"), (.some (.q .kml (s% "LinkType"))), (.some (.q .kml (s% "AbstractObjectGroup"))), false, .none⟩,
  -- fastkml/schema/ogckml22.xsd:858-859
  ⟨.q .kml (s% "LinkSimpleExtensionGroup"), (.some (.q .xs (s% "anySimpleType"))), .none, true, .none⟩,
  -- fastkml/schema/ogckml22.xsd:860-861
  ⟨.q .kml (s% "LinkObjectExtensionGroup"), .none, (.some (.q .kml (s% "AbstractObjectGroup"))), true, .none⟩,
  -- fastkml/schema/ogckml22.xsd:863-864
  ⟨.q .kml (s% "MultiGeometry"), (.some (.q .kml (s% "MultiGeometryType"))), (.some (.q .kml (s% "AbstractGeometryGroup"))), false, .none⟩,
  -- fastkml/schema/ogckml22.xsd:879-880
  ⟨.q .kml (s% "MultiGeometrySimpleExtensionGroup"), (.some (.q .xs (s% "anySimpleType"))), .none, true, .none⟩,
  -- fastkml/schema/ogckml22.xsd:881-882
  ⟨.q .kml (s% "MultiGeometryObjectExtensionGroup"), .none, (.some (.q .kml (s% "AbstractObjectGroup"))), true, .none⟩,
  -- fastkml/schema/ogckml22.xsd:884-885
  ⟨.q .kml (s% "Point"), (.some (.q .kml (s% "PointType"))), (.some (.q .kml (s% "AbstractGeometryGroup"))), false, .none⟩,
  -- fastkml/schema/ogckml22.xsd:901-902
  ⟨.q .kml (s% "PointSimpleExtensionGroup"), (.some (.q .xs (s% "anySimpleType"))), .none, true, .none⟩,
  -- fastkml/schema/ogckml22.xsd:903-904
  ⟨.q .kml (s% "PointObjectExtensionGroup"), .none, (.some (.q .kml (s% "AbstractObjectGroup"))), true, .none⟩,
  -- fastkml/schema/ogckml22.xsd:906-907
  ⟨.q .kml (s% "LineString"), (.some (.q .kml (s% "LineStringType"))), (.some (.q .kml (s% "AbstractGeometryGroup"))), false, .none⟩,
  -- fastkml/schema/ogckml22.xsd:924-925
  ⟨.q .kml (s% "LineStringSimpleExtensionGroup"), (.some (.q .xs (s% "anySimpleType"))), .none, true, .none⟩,
  -- fastkml/schema/ogckml22.xsd:926-927
  ⟨.q .kml (s% "LineStringObjectExtensionGroup"), .none, (.some (.q .kml (s% "AbstractObjectGroup"))), true, .none⟩,
  -- fastkml/schema/ogckml22.xsd:929-930
  ⟨.q .kml (s% "LinearRing"), (.some (.q .kml (s% "LinearRingType"))), (.some (.q .kml (s% "AbstractGeometryGroup"))), false, .none⟩,
  -- fastkml/schema/ogckml22.xsd:947-948
  ⟨.q .kml (s% "LinearRingSimpleExtensionGroup"), (.some (.q .xs (s% "anySimpleType"))), .none, true, .none⟩,
  -- fastkml/schema/ogckml22.xsd:949-950
  ⟨.q .kml (s% "LinearRingObjectExtensionGroup"), .none, (.some (.q .kml (s% "AbstractObjectGroup"))), true, .none⟩,
  -- fastkml/schema/ogckml22.xsd:952-953
  ⟨.q .kml (s% "Polygon"), (.some (.q .kml (s% "PolygonType"))), (.some (.q .kml (s% "AbstractGeometryGroup"))), false, .none⟩,
  -- fastkml/schema/ogckml22.xsd:972-973
  ⟨.q .kml (s% "PolygonSimpleExtensionGroup"), (.some (.q .xs (s% "anySimpleType"))), .none, true, .none⟩,
  -- fastkml/schema/ogckml22.xsd:974-975
  ⟨.q .kml (s% "PolygonObjectExtensionGroup"), .none, (.some (.q .kml (s% "AbstractObjectGroup"))), true, .none⟩,
  -- fastkml/schema/ogckml22.xsd:977
  ⟨.q .kml (s% "outerBoundaryIs"), (.some (.q .kml (s% "BoundaryType"))), .none, false, .none⟩,
  -- fastkml/schema/ogckml22.xsd:978
  ⟨.q .kml (s% "innerBoundaryIs"), (.some (.q .kml (s% "BoundaryType"))), .none, false, .none⟩,
  -- fastkml/schema/ogckml22.xsd:988-989
  ⟨.q .kml (s% "BoundarySimpleExtensionGroup"), (.some (.q .xs (s% "anySimpleType"))), .none, true, .none⟩,
  -- fastkml/schema/ogckml22.xsd:990-991
  ⟨.q .kml (s% "BoundaryObjectExtensionGroup"), .none, (.some (.q .kml (s% "AbstractObjectGroup"))), true, .none⟩,
  -- fastkml/schema/ogckml22.xsd:993-994
  ⟨.q .kml (s% "Model"), (.some (.q .kml (s% "ModelType"))), (.some (.q .kml (s% "AbstractGeometryGroup"))), false, .none⟩,
  -- fastkml/schema/ogckml22.xsd:1013-1014
  ⟨.q .kml (s% "ModelSimpleExtensionGroup"), (.some (.q .xs (s% "anySimpleType"))), .none, true, .none⟩,
  -- fastkml/schema/ogckml22.xsd:1015-1016
  ⟨.q .kml (s% "ModelObjectExtensionGroup"), .none, (.some (.q .kml (s% "AbstractObjectGroup"))), true, .none⟩,
  -- fastkml/schema/ogckml22.xsd:1018-1019
  ⟨.q .kml (s% "Location"), (.some (.q .kml (s% "LocationType"))), (.some (.q .kml (s% "AbstractObjectGroup"))), false, .none⟩,
  -- fastkml/schema/ogckml22.xsd:1035-1036
  ⟨.q .kml (s% "LocationSimpleExtensionGroup"), (.some (.q .xs (s% "anySimpleType"))), .none, true, .none⟩,
  -- fastkml/schema/ogckml22.xsd:1037-1038
  ⟨.q .kml (s% "LocationObjectExtensionGroup"), .none, (.some (.q .kml (s% "AbstractObjectGroup"))), true, .none⟩,
  -- fastkml/schema/ogckml22.xsd:1040-1041
  ⟨.q .kml (s% "Orientation"), (.some (.q .kml (s% "OrientationType"))), (.some (.q .kml (s% "AbstractObjectGroup"))), false, .none⟩,
  -- fastkml/schema/ogckml22.xsd:1057-1058
  ⟨.q .kml (s% "OrientationSimpleExtensionGroup"), (.some (.q .xs (s% "anySimpleType"))), .none, true, .none⟩,
  -- fastkml/schema/ogckml22.xsd:1059-1060
  ⟨.q .kml (s% "OrientationObjectExtensionGroup"), .none, (.some (.q .kml (s% "AbstractObjectGroup"))), true, .none⟩,
  -- fastkml/schema/ogckml22.xsd:1062-1063
  ⟨.q .kml (s% "Scale"), (.some (.q .kml (s% "ScaleType"))), (.some (.q .kml (s% "AbstractObjectGroup"))), false, .none⟩,
  -- fastkml/schema/ogckml22.xsd:1079-1080
  ⟨.q .kml (s% "ScaleSimpleExtensionGroup"), (.some (.q .xs (s% "anySimpleType"))), .none, true, .none⟩,
  -- fastkml/schema/ogckml22.xsd:1081-1082
  ⟨.q .kml (s% "ScaleObjectExtensionGroup"), .none, (.some (.q .kml (s% "AbstractObjectGroup"))), true, .none⟩,
  -- fastkml/schema/ogckml22.xsd:1084-1085
  ⟨.q .kml (s% "ResourceMap"), (.some (.q .kml (s% "ResourceMapType"))), (.some (.q .kml (s% "AbstractObjectGroup"))), false, .none⟩,
  -- fastkml/schema/ogckml22.xsd:1099-1100
  ⟨.q .kml (s% "ResourceMapSimpleExtensionGroup"), (.some (.q .xs (s% "anySimpleType"))), .none, true, .none⟩,
  -- fastkml/schema/ogckml22.xsd:1101-1102
  ⟨.q .kml (s% "ResourceMapObjectExtensionGroup"), .none, (.some (.q .kml (s% "AbstractObjectGroup"))), true, .none⟩,
  -- fastkml/schema/ogckml22.xsd:1104-1105
  ⟨.q .kml (s% "Alias"), (.some (.q .kml (s% "AliasType"))), (.some (.q .kml (s% "AbstractObjectGroup"))), false, .none⟩,
  -- fastkml/schema/ogckml22.xsd:1120-1121
  ⟨.q .kml (s% "AliasSimpleExtensionGroup"), (.some (.q .xs (s% "anySimpleType"))), .none, true, .none⟩,
  -- fastkml/schema/ogckml22.xsd:1122-1123
  ⟨.q .kml (s% "AliasObjectExtensionGroup"), .none, (.some (.q .kml (s% "AbstractObjectGroup"))), true, .none⟩,
  -- fastkml/schema/ogckml22.xsd:1125-1126
  ⟨.q .kml (s% "GroundOverlay"), (.some (.q .kml (s% "GroundOverlayType"))), (.some (.q .kml (s% "AbstractOverlayGroup"))), false, .none⟩,
  -- fastkml/schema/ogckml22.xsd:1142-1143
  ⟨.q .kml (s% "GroundOverlaySimpleExtensionGroup"), (.some (.q .xs (s% "anySimpleType"))), .none, true, .none⟩,
  -- fastkml/schema/ogckml22.xsd:1144-1145
  ⟨.q .kml (s% "GroundOverlayObjectExtensionGroup"), .none, (.some (.q .kml (s% "AbstractObjectGroup"))), true, .none⟩,
  -- fastkml/schema/ogckml22.xsd:1163-1164
  ⟨.q .kml (s% "AbstractLatLonBoxSimpleExtensionGroup"), (.some (.q .xs (s% "anySimpleType"))), .none, true, .none⟩,
  -- fastkml/schema/ogckml22.xsd:1165-1166
  ⟨.q .kml (s% "AbstractLatLonBoxObjectExtensionGroup"), .none, (.some (.q .kml (s% "AbstractObjectGroup"))), true, .none⟩,
  -- fastkml/schema/ogckml22.xsd:1168-1169
  ⟨.q .kml (s% "LatLonBox"), (.some (.q .kml (s% "LatLonBoxType"))), (.some (.q .kml (s% "AbstractObjectGroup"))), false, .none⟩,
  -- fastkml/schema/ogckml22.xsd:1183-1184
  ⟨.q .kml (s% "LatLonBoxSimpleExtensionGroup"), (.some (.q .xs (s% "anySimpleType"))), .none, true, .none⟩,
  -- fastkml/schema/ogckml22.xsd:1185-1186
  ⟨.q .kml (s% "LatLonBoxObjectExtensionGroup"), .none, (.some (.q .kml (s% "AbstractObjectGroup"))), true, .none⟩,
  -- fastkml/schema/ogckml22.xsd:1188-1189
  ⟨.q .kml (s% "ScreenOverlay"), (.some (.q .kml (s% "ScreenOverlayType"))), (.some (.q .kml (s% "AbstractOverlayGroup"))), false, .none⟩,
  -- fastkml/schema/ogckml22.xsd:1207-1208
  ⟨.q .kml (s% "ScreenOverlaySimpleExtensionGroup"), (.some (.q .xs (s% "anySimpleType"))), .none, true, .none⟩,
  -- fastkml/schema/ogckml22.xsd:1209-1210
  ⟨.q .kml (s% "ScreenOverlayObjectExtensionGroup"), .none, (.some (.q .kml (s% "AbstractObjectGroup"))), true, .none⟩,
  -- fastkml/schema/ogckml22.xsd:1212-1213
  ⟨.q .kml (s% "PhotoOverlay"), (.some (.q .kml (s% "PhotoOverlayType"))), (.some (.q .kml (s% "AbstractOverlayGroup"))), false, .none⟩,
  -- fastkml/schema/ogckml22.xsd:1231-1232
  ⟨.q .kml (s% "PhotoOverlaySimpleExtensionGroup"), (.some (.q .xs (s% "anySimpleType"))), .none, true, .none⟩,
  -- fastkml/schema/ogckml22.xsd:1233-1234
  ⟨.q .kml (s% "PhotoOverlayObjectExtensionGroup"), .none, (.some (.q .kml (s% "AbstractObjectGroup"))), true, .none⟩,
  -- fastkml/schema/ogckml22.xsd:1236-1237
  ⟨.q .kml (s% "ViewVolume"), (.some (.q .kml (s% "ViewVolumeType"))), (.some (.q .kml (s% "AbstractObjectGroup"))), false, .none⟩,
  -- fastkml/schema/ogckml22.xsd:1255-1256
  ⟨.q .kml (s% "ViewVolumeSimpleExtensionGroup"), (.some (.q .xs (s% "anySimpleType"))), .none, true, .none⟩,
  -- fastkml/schema/ogckml22.xsd:1257-1258
  ⟨.q .kml (s% "ViewVolumeObjectExtensionGroup"), .none, (.some (.q .kml (s% "AbstractObjectGroup"))), true, .none⟩,
  -- fastkml/schema/ogckml22.xsd:1260-1261
  ⟨.q .kml (s% "ImagePyramid"), (.some (.q .kml (s% "ImagePyramidType"))), (.some (.q .kml (s% "AbstractObjectGroup"))), false, .none⟩,
  -- fastkml/schema/ogckml22.xsd:1278-1279
  ⟨.q .kml (s% "ImagePyramidSimpleExtensionGroup"), (.some (.q .xs (s% "anySimpleType"))), .none, true, .none⟩,
  -- fastkml/schema/ogckml22.xsd:1280-1281
  ⟨.q .kml (s% "ImagePyramidObjectExtensionGroup"), .none, (.some (.q .kml (s% "AbstractObjectGroup"))), true, .none⟩,
  -- fastkml/schema/ogckml22.xsd:1283-1284
  ⟨.q .kml (s% "Style"), (.some (.q .kml (s% "StyleType"))), (.some (.q .kml (s% "AbstractStyleSelectorGroup"))), false, .none⟩,
  -- fastkml/schema/ogckml22.xsd:1303-1304
  ⟨.q .kml (s% "StyleSimpleExtensionGroup"), (.some (.q .xs (s% "anySimpleType"))), .none, true, .none⟩,
  -- fastkml/schema/ogckml22.xsd:1305-1306
  ⟨.q .kml (s% "StyleObjectExtensionGroup"), .none, (.some (.q .kml (s% "AbstractObjectGroup"))), true, .none⟩,
  -- fastkml/schema/ogckml22.xsd:1308-1309
  ⟨.q .kml (s% "StyleMap"), (.some (.q .kml (s% "StyleMapType"))), (.some (.q .kml (s% "AbstractStyleSelectorGroup"))), false, .none⟩,
  -- fastkml/schema/ogckml22.xsd:1323-1324
  ⟨.q .kml (s% "StyleMapSimpleExtensionGroup"), (.some (.q .xs (s% "anySimpleType"))), .none, true, .none⟩,
  -- fastkml/schema/ogckml22.xsd:1325-1326
  ⟨.q .kml (s% "StyleMapObjectExtensionGroup"), .none, (.some (.q .kml (s% "AbstractObjectGroup"))), true, .none⟩,
  -- fastkml/schema/ogckml22.xsd:1328-1329
  ⟨.q .kml (s% "Pair"), (.some (.q .kml (s% "PairType"))), (.some (.q .kml (s% "AbstractObjectGroup"))), false, .none⟩,
  -- fastkml/schema/ogckml22.xsd:1345-1346
  ⟨.q .kml (s% "PairSimpleExtensionGroup"), (.some (.q .xs (s% "anySimpleType"))), .none, true, .none⟩,
  -- fastkml/schema/ogckml22.xsd:1347-1348
  ⟨.q .kml (s% "PairObjectExtensionGroup"), .none, (.some (.q .kml (s% "AbstractObjectGroup"))), true, .none⟩,
  -- fastkml/schema/ogckml22.xsd:1350-1351
  ⟨.q .kml (s% "AbstractSubStyleGroup"), (.some (.q .kml (s% "AbstractSubStyleType"))), (.some (.q .kml (s% "AbstractObjectGroup"))), true, .none⟩,
  -- fastkml/schema/ogckml22.xsd:1364-1365
  ⟨.q .kml (s% "AbstractSubStyleSimpleExtensionGroup"), (.some (.q .xs (s% "anySimpleType"))), .none, true, .none⟩,
  -- fastkml/schema/ogckml22.xsd:1366-1367
  ⟨.q .kml (s% "AbstractSubStyleObjectExtensionGroup"), .none, (.some (.q .kml (s% "AbstractObjectGroup"))), true, .none⟩,
  -- fastkml/schema/ogckml22.xsd:1369-1370
  ⟨.q .kml (s% "AbstractColorStyleGroup"), (.some (.q .kml (s% "AbstractColorStyleType"))), (.some (.q .kml (s% "AbstractSubStyleGroup"))), true, .none⟩,
  -- fastkml/schema/ogckml22.xsd:1385-1386
  ⟨.q .kml (s% "AbstractColorStyleObjectExtensionGroup"), .none, (.some (.q .kml (s% "AbstractObjectGroup"))), true, .none⟩,
  -- fastkml/schema/ogckml22.xsd:1387-1388
  ⟨.q .kml (s% "AbstractColorStyleSimpleExtensionGroup"), (.some (.q .xs (s% "anySimpleType"))), .none, true, .none⟩,
  -- fastkml/schema/ogckml22.xsd:1390-1391
  ⟨.q .kml (s% "IconStyle"), (.some (.q .kml (s% "IconStyleType"))), (.some (.q .kml (s% "AbstractColorStyleGroup"))), false, .none⟩,
  -- fastkml/schema/ogckml22.xsd:1408-1409
  ⟨.q .kml (s% "IconStyleSimpleExtensionGroup"), (.some (.q .xs (s% "anySimpleType"))), .none, true, .none⟩,
  -- fastkml/schema/ogckml22.xsd:1410-1411
  ⟨.q .kml (s% "IconStyleObjectExtensionGroup"), .none, (.some (.q .kml (s% "AbstractObjectGroup"))), true, .none⟩,
  -- fastkml/schema/ogckml22.xsd:1426-1427
  ⟨.q .kml (s% "BasicLinkSimpleExtensionGroup"), (.some (.q .xs (s% "anySimpleType"))), .none, true, .none⟩,
  -- fastkml/schema/ogckml22.xsd:1428-1429
  ⟨.q .kml (s% "BasicLinkObjectExtensionGroup"), .none, (.some (.q .kml (s% "AbstractObjectGroup"))), true, .none⟩,
  -- fastkml/schema/ogckml22.xsd:1431-1432
  ⟨.q .kml (s% "LabelStyle"), (.some (.q .kml (s% "LabelStyleType"))), (.some (.q .kml (s% "AbstractColorStyleGroup"))), false, .none⟩,
  -- fastkml/schema/ogckml22.xsd:1446-1447
  ⟨.q .kml (s% "LabelStyleSimpleExtensionGroup"), (.some (.q .xs (s% "anySimpleType"))), .none, true, .none⟩,
  -- fastkml/schema/ogckml22.xsd:1448-1449
  ⟨.q .kml (s% "LabelStyleObjectExtensionGroup"), .none, (.some (.q .kml (s% "AbstractObjectGroup"))), true, .none⟩,
  -- fastkml/schema/ogckml22.xsd:1451-1452
  ⟨.q .kml (s% "LineStyle"), (.some (.q .kml (s% "LineStyleType"))), (.some (.q .kml (s% "AbstractColorStyleGroup"))), false, .none⟩,
  -- fastkml/schema/ogckml22.xsd:1466-1467
  ⟨.q .kml (s% "LineStyleSimpleExtensionGroup"), (.some (.q .xs (s% "anySimpleType"))), .none, true, .none⟩,
  -- fastkml/schema/ogckml22.xsd:1468-1469
  ⟨.q .kml (s% "LineStyleObjectExtensionGroup"), .none, (.some (.q .kml (s% "AbstractObjectGroup"))), true, .none⟩,
  -- fastkml/schema/ogckml22.xsd:1471-1472
  ⟨.q .kml (s% "PolyStyle"), (.some (.q .kml (s% "PolyStyleType"))), (.some (.q .kml (s% "AbstractColorStyleGroup"))), false, .none⟩,
  -- fastkml/schema/ogckml22.xsd:1487-1488
  ⟨.q .kml (s% "PolyStyleSimpleExtensionGroup"), (.some (.q .xs (s% "anySimpleType"))), .none, true, .none⟩,
  -- fastkml/schema/ogckml22.xsd:1489-1490
  ⟨.q .kml (s% "PolyStyleObjectExtensionGroup"), .none, (.some (.q .kml (s% "AbstractObjectGroup"))), true, .none⟩,
  -- fastkml/schema/ogckml22.xsd:1492-1493
  ⟨.q .kml (s% "BalloonStyle"), (.some (.q .kml (s% "BalloonStyleType"))), (.some (.q .kml (s% "AbstractSubStyleGroup"))), false, .none⟩,
  -- fastkml/schema/ogckml22.xsd:1516-1517
  ⟨.q .kml (s% "BalloonStyleSimpleExtensionGroup"), (.some (.q .xs (s% "anySimpleType"))), .none, true, .none⟩,
  -- fastkml/schema/ogckml22.xsd:1518-1519
  ⟨.q .kml (s% "BalloonStyleObjectExtensionGroup"), .none, (.some (.q .kml (s% "AbstractObjectGroup"))), true, .none⟩,
  -- fastkml/schema/ogckml22.xsd:1521-1522
  ⟨.q .kml (s% "ListStyle"), (.some (.q .kml (s% "ListStyleType"))), (.some (.q .kml (s% "AbstractSubStyleGroup"))), false, .none⟩,
  -- fastkml/schema/ogckml22.xsd:1539-1540
  ⟨.q .kml (s% "ListStyleSimpleExtensionGroup"), (.some (.q .xs (s% "anySimpleType"))), .none, true, .none⟩,
  -- fastkml/schema/ogckml22.xsd:1541-1542
  ⟨.q .kml (s% "ListStyleObjectExtensionGroup"), .none, (.some (.q .kml (s% "AbstractObjectGroup"))), true, .none⟩,
  -- fastkml/schema/ogckml22.xsd:1544-1545
  ⟨.q .kml (s% "ItemIcon"), (.some (.q .kml (s% "ItemIconType"))), (.some (.q .kml (s% "AbstractObjectGroup"))), false, .none⟩,
  -- fastkml/schema/ogckml22.xsd:1560-1561
  ⟨.q .kml (s% "ItemIconSimpleExtensionGroup"), (.some (.q .xs (s% "anySimpleType"))), .none, true, .none⟩,
  -- fastkml/schema/ogckml22.xsd:1562-1563
  ⟨.q .kml (s% "ItemIconObjectExtensionGroup"), .none, (.some (.q .kml (s% "AbstractObjectGroup"))), true, .none⟩,
  -- fastkml/schema/ogckml22.xsd:1565-1566
  ⟨.q .kml (s% "TimeStamp"), (.some (.q .kml (s% "TimeStampType"))), (.some (.q .kml (s% "AbstractTimePrimitiveGroup"))), false, .none⟩,
  -- fastkml/schema/ogckml22.xsd:1580-1581
  ⟨.q .kml (s% "TimeStampSimpleExtensionGroup"), (.some (.q .xs (s% "anySimpleType"))), .none, true, .none⟩,
  -- fastkml/schema/ogckml22.xsd:1582-1583
  ⟨.q .kml (s% "TimeStampObjectExtensionGroup"), .none, (.some (.q .kml (s% "AbstractObjectGroup"))), true, .none⟩,
  -- fastkml/schema/ogckml22.xsd:1585-1586
  ⟨.q .kml (s% "TimeSpan"), (.some (.q .kml (s% "TimeSpanType"))), (.some (.q .kml (s% "AbstractTimePrimitiveGroup"))), false, .none⟩,
  -- fastkml/schema/ogckml22.xsd:1601-1602
  ⟨.q .kml (s% "TimeSpanSimpleExtensionGroup"), (.some (.q .xs (s% "anySimpleType"))), .none, true, .none⟩,
  -- fastkml/schema/ogckml22.xsd:1603-1604
  ⟨.q .kml (s% "TimeSpanObjectExtensionGroup"), .none, (.some (.q .kml (s% "AbstractObjectGroup"))), true, .none⟩,
  -- fastkml/schema/ogckml22.xsd:1606
  ⟨.q .kml (s% "Update"), (.some (.q .kml (s% "UpdateType"))), .none, false, .none⟩,
  -- fastkml/schema/ogckml22.xsd:1620
  ⟨.q .kml (s% "UpdateOpExtensionGroup"), .none, .none, true, .none⟩,
  -- fastkml/schema/ogckml22.xsd:1621
  ⟨.q .kml (s% "UpdateExtensionGroup"), .none, .none, true, .none⟩,
  -- fastkml/schema/ogckml22.xsd:1623
  ⟨.q .kml (s% "Create"), (.some (.q .kml (s% "CreateType"))), .none, false, .none⟩,
  -- fastkml/schema/ogckml22.xsd:1631
  ⟨.q .kml (s% "Delete"), (.some (.q .kml (s% "DeleteType"))), .none, false, .none⟩,
  -- fastkml/schema/ogckml22.xsd:1639
  ⟨.q .kml (s% "Change"), (.some (.q .kml (s% "ChangeType"))), .none, false, .none⟩,
  -- fastkml/schema/kml22gx.xsd:65-66
  ⟨.q .gx (s% "AbstractTrackSimpleExtensionGroup"), (.some (.q .xs (s% "anySimpleType"))), .none, true, .none⟩,
  -- fastkml/schema/kml22gx.xsd:67-68
  ⟨.q .gx (s% "altitudeMode"), (.some (.q .gx (s% "altitudeModeEnumType"))), (.some (.q .kml (s% "altitudeModeGroup"))), false, .none⟩,
  -- fastkml/schema/kml22gx.xsd:72-73
  ⟨.q .gx (s% "altitudeOffset"), (.some (.q .xs (s% "double"))), (.some (.q .kml (s% "AbstractGeometrySimpleExtensionGroup"))), false, .none⟩,
  -- fastkml/schema/kml22gx.xsd:74
  ⟨.q .gx (s% "angles"), (.some (.q .xs (s% "string"))), .none, false, .none⟩,
  -- fastkml/schema/kml22gx.xsd:75-76
  ⟨.q .gx (s% "balloonVisibility"), (.some (.q .xs (s% "boolean"))), (.some (.q .kml (s% "AbstractFeatureSimpleExtensionGroup"))), false, (.some (s% "true"))⟩,
  -- fastkml/schema/kml22gx.xsd:77
  ⟨.q .gx (s% "coord"), (.some (.q .xs (s% "string"))), .none, false, .none⟩,
  -- fastkml/schema/kml22gx.xsd:78
  ⟨.q .gx (s% "delayedStart"), (.some (.q .xs (s% "double"))), .none, false, (.some (s% "0.0"))⟩,
  -- fastkml/schema/kml22gx.xsd:80-81
  ⟨.q .gx (s% "drawOrder"), (.some (.q .xs (s% "integer"))), (.some (.q .kml (s% "AbstractGeometrySimpleExtensionGroup"))), false, (.some (s% "0"))⟩,
  -- fastkml/schema/kml22gx.xsd:82
  ⟨.q .gx (s% "duration"), (.some (.q .xs (s% "double"))), .none, false, (.some (s% "0.0"))⟩,
  -- fastkml/schema/kml22gx.xsd:83
  ⟨.q .gx (s% "flyToMode"), (.some (.q .gx (s% "flyToModeEnumType"))), .none, false, (.some (s% "bounce"))⟩,
  -- fastkml/schema/kml22gx.xsd:86-87
  ⟨.q .gx (s% "horizFov"), (.some (.q .kml (s% "anglepos180Type"))), (.some (.q .kml (s% "AbstractViewSimpleExtensionGroup"))), false, .none⟩,
  -- fastkml/schema/kml22gx.xsd:88
  ⟨.q .gx (s% "interpolate"), (.some (.q .xs (s% "boolean"))), .none, false, (.some (s% "false"))⟩,
  -- fastkml/schema/kml22gx.xsd:91-92
  ⟨.q .gx (s% "labelVisibility"), (.some (.q .xs (s% "boolean"))), (.some (.q .kml (s% "AbstractColorStyleSimpleExtensionGroup"))), false, (.some (s% "0"))⟩,
  -- fastkml/schema/kml22gx.xsd:93-94
  ⟨.q .gx (s% "outerColor"), (.some (.q .kml (s% "colorType"))), (.some (.q .kml (s% "LineStyleSimpleExtensionGroup"))), false, (.some (s% "ffffffff"))⟩,
  -- fastkml/schema/kml22gx.xsd:95-96
  ⟨.q .gx (s% "outerWidth"), (.some (.q .gx (s% "outerWidthType"))), (.some (.q .kml (s% "LineStyleSimpleExtensionGroup"))), false, (.some (s% "0.0"))⟩,
  -- fastkml/schema/kml22gx.xsd:97-98
  ⟨.q .gx (s% "physicalWidth"), (.some (.q .xs (s% "float"))), (.some (.q .kml (s% "LineStyleSimpleExtensionGroup"))), false, (.some (s% "0.0"))⟩,
  -- fastkml/schema/kml22gx.xsd:99
  ⟨.q .gx (s% "playMode"), (.some (.q .gx (s% "playModeEnumType"))), .none, false, (.some (s% "pause"))⟩,
  -- fastkml/schema/kml22gx.xsd:100-102
  ⟨.q .gx (s% "rank"), (.some (.q .xs (s% "double"))), (.some (.q .kml (s% "AbstractFeatureSimpleExtensionGroup"))), false, (.some (s% "0.0"))⟩,
  -- fastkml/schema/kml22gx.xsd:103
  ⟨.q .gx (s% "value"), (.some (.q .xs (s% "string"))), .none, false, .none⟩,
  -- fastkml/schema/kml22gx.xsd:105-106
  ⟨.q .gx (s% "x"), (.some (.q .xs (s% "integer"))), (.some (.q .kml (s% "BasicLinkSimpleExtensionGroup"))), false, (.some (s% "0"))⟩,
  -- fastkml/schema/kml22gx.xsd:107-108
  ⟨.q .gx (s% "y"), (.some (.q .xs (s% "integer"))), (.some (.q .kml (s% "BasicLinkSimpleExtensionGroup"))), false, (.some (s% "0"))⟩,
  -- fastkml/schema/kml22gx.xsd:109-110
  ⟨.q .gx (s% "w"), (.some (.q .xs (s% "integer"))), (.some (.q .kml (s% "BasicLinkSimpleExtensionGroup"))), false, (.some (s% "-1"))⟩,
  -- fastkml/schema/kml22gx.xsd:111-112
  ⟨.q .gx (s% "h"), (.some (.q .xs (s% "integer"))), (.some (.q .kml (s% "BasicLinkSimpleExtensionGroup"))), false, (.some (s% "-1"))⟩,
  -- fastkml/schema/kml22gx.xsd:118-119
  ⟨.q .gx (s% "AbstractTourPrimitiveGroup"), (.some (.q .gx (s% "AbstractTourPrimitiveType"))), (.some (.q .kml (s% "AbstractObjectGroup"))), true, .none⟩,
  -- fastkml/schema/kml22gx.xsd:120
  ⟨.q .gx (s% "AbstractTourPrimitive"), (.some (.q .gx (s% "AbstractTourPrimitiveType"))), .none, false, .none⟩,
  -- fastkml/schema/kml22gx.xsd:127-128
  ⟨.q .gx (s% "AnimatedUpdate"), (.some (.q .gx (s% "AnimatedUpdateType"))), (.some (.q .gx (s% "AbstractTourPrimitiveGroup"))), false, .none⟩,
  -- fastkml/schema/kml22gx.xsd:141-142
  ⟨.q .gx (s% "FlyTo"), (.some (.q .gx (s% "FlyToType"))), (.some (.q .gx (s% "AbstractTourPrimitiveGroup"))), false, .none⟩,
  -- fastkml/schema/kml22gx.xsd:155-156
  ⟨.q .gx (s% "Playlist"), (.some (.q .gx (s% "PlaylistType"))), (.some (.q .kml (s% "AbstractObjectGroup"))), false, .none⟩,
  -- fastkml/schema/kml22gx.xsd:168-169
  ⟨.q .gx (s% "SoundCue"), (.some (.q .gx (s% "SoundCueType"))), (.some (.q .gx (s% "AbstractTourPrimitiveGroup"))), false, .none⟩,
  -- fastkml/schema/kml22gx.xsd:181-182
  ⟨.q .gx (s% "Tour"), (.some (.q .gx (s% "TourType"))), (.some (.q .kml (s% "AbstractFeatureGroup"))), false, .none⟩,
  -- fastkml/schema/kml22gx.xsd:195-196
  ⟨.q .gx (s% "TimeStamp"), (.some (.q .kml (s% "TimeStampType"))), (.some (.q .kml (s% "AbstractViewObjectExtensionGroup"))), false, .none⟩,
  -- fastkml/schema/kml22gx.xsd:197-198
  ⟨.q .gx (s% "TimeSpan"), (.some (.q .kml (s% "TimeSpanType"))), (.some (.q .kml (s% "AbstractViewObjectExtensionGroup"))), false, .none⟩,
  -- fastkml/schema/kml22gx.xsd:200-201
  ⟨.q .gx (s% "TourControl"), (.some (.q .gx (s% "TourControlType"))), (.some (.q .gx (s% "AbstractTourPrimitiveGroup"))), false, .none⟩,
  -- fastkml/schema/kml22gx.xsd:212-213
  ⟨.q .gx (s% "Wait"), (.some (.q .gx (s% "WaitType"))), (.some (.q .gx (s% "AbstractTourPrimitiveGroup"))), false, .none⟩,
  -- fastkml/schema/kml22gx.xsd:224-225
  ⟨.q .gx (s% "LatLonQuad"), (.some (.q .gx (s% "LatLonQuadType"))), (.some (.q .kml (s% "GroundOverlayObjectExtensionGroup"))), false, .none⟩,
  -- fastkml/schema/kml22gx.xsd:236-237
  ⟨.q .gx (s% "Track"), (.some (.q .gx (s% "TrackType"))), (.some (.q .kml (s% "AbstractGeometryGroup"))), false, .none⟩,
  -- fastkml/schema/kml22gx.xsd:258-259
  ⟨.q .gx (s% "MultiTrack"), (.some (.q .gx (s% "MultiTrackType"))), (.some (.q .kml (s% "AbstractGeometryGroup"))), false, .none⟩,
  -- fastkml/schema/kml22gx.xsd:273-274
  ⟨.q .gx (s% "SimpleArrayField"), (.some (.q .gx (s% "SimpleArrayFieldType"))), (.some (.q .kml (s% "SchemaExtension"))), false, .none⟩,
  -- fastkml/schema/kml22gx.xsd:285
  ⟨.q .gx (s% "SimpleArrayFieldExtension"), .none, .none, true, .none⟩,
  -- fastkml/schema/kml22gx.xsd:287-288
  ⟨.q .gx (s% "SimpleArrayData"), (.some (.q .gx (s% "SimpleArrayDataType"))), (.some (.q .kml (s% "SchemaDataExtension"))), false, .none⟩,
  -- fastkml/schema/kml22gx.xsd:303
  ⟨.q .gx (s% "SimpleArrayDataExtension"), .none, .none, true, .none⟩,
  -- fastkml/schema/kml22gx.xsd:305-306
  ⟨.q .gx (s% "ViewerOptions"), (.some (.q .gx (s% "ViewerOptionsType"))), (.some (.q .kml (s% "AbstractViewObjectExtensionGroup"))), false, .none⟩,
  -- fastkml/schema/kml22gx.xsd:318
  ⟨.q .gx (s% "option"), (.some (.q .gx (s% "optionType"))), .none, false, .none⟩,
  -- fastkml/schema/atom-author-link.xsd:23
  ⟨.q .atom (s% "name"), (.some (.q .xs (s% "string"))), .none, false, .none⟩,
  -- fastkml/schema/atom-author-link.xsd:24
  ⟨.q .atom (s% "uri"), (.some (.q .xs (s% "string"))), .none, false, .none⟩,
  -- fastkml/schema/atom-author-link.xsd:25
  ⟨.q .atom (s% "email"), (.some (.q .atom (s% "atomEmailAddress"))), .none, false, .none⟩,
  -- fastkml/schema/atom-author-link.xsd:28
  ⟨.q .atom (s% "author"), (.some (.q .atom (s% "atomPersonConstruct"))), .none, false, .none⟩,
  -- fastkml/schema/atom-author-link.xsd:31-43
  ⟨.q .atom (s% "link"), (.some (.q .atom (s% "link"))), .none, false, .none⟩]

/-- fastkml/schema/ogckml22.xsd:183-190 -/
def xsd_kml_vec2Type : XType where
  name := .q .kml (s% "vec2Type")
  base := .none
  particles := []
  attrs := [⟨(s% "x"), (.some (.q .xs (s% "double"))), false, (.some (s% "1.0"))⟩,
    ⟨(s% "y"), (.some (.q .xs (s% "double"))), false, (.some (s% "1.0"))⟩,
    ⟨(s% "xunits"), (.some (.q .kml (s% "unitsEnumType"))), false, (.some (s% "fraction"))⟩,
    ⟨(s% "yunits"), (.some (.q .kml (s% "unitsEnumType"))), false, (.some (s% "fraction"))⟩]
  text := false

/-- fastkml/schema/ogckml22.xsd:292-298 -/
def xsd_kml_AbstractObjectType : XType where
  name := .q .kml (s% "AbstractObjectType")
  base := .none
  particles := [⟨[(⟨.q .kml (s% "ObjectSimpleExtensionGroup"), .none⟩)], 0, true⟩]
  attrs := [⟨(s% "id"), (.some (.q .xs (s% "ID"))), false, .none⟩,
    ⟨(s% "targetId"), (.some (.q .xs (s% "NCName"))), false, .none⟩]
  text := false

/-- fastkml/schema/ogckml22.xsd:309-349 -/
def xsd_kml_AbstractFeatureType : XType where
  name := .q .kml (s% "AbstractFeatureType")
  base := (.some (.q .kml (s% "AbstractObjectType")))
  particles := [⟨[(⟨.q .kml (s% "name"), .none⟩)], 0, false⟩,
    ⟨[(⟨.q .kml (s% "visibility"), .none⟩)], 0, false⟩,
    ⟨[(⟨.q .kml (s% "open"), .none⟩)], 0, false⟩,
    ⟨[(⟨.q .atom (s% "author"), .none⟩)], 0, false⟩,
    ⟨[(⟨.q .atom (s% "link"), .none⟩)], 0, false⟩,
    ⟨[(⟨.q .kml (s% "address"), .none⟩)], 0, false⟩,
    ⟨[(⟨.q .xal (s% "AddressDetails"), .none⟩)], 0, false⟩,
    ⟨[(⟨.q .kml (s% "phoneNumber"), .none⟩)], 0, false⟩,
    ⟨[(⟨.q .kml (s% "Snippet"), .none⟩), (⟨.q .kml (s% "snippet"), .none⟩)], 0, false⟩,
    ⟨[(⟨.q .kml (s% "description"), .none⟩)], 0, false⟩,
    ⟨[(⟨.q .kml (s% "AbstractViewGroup"), .none⟩)], 0, false⟩,
    ⟨[(⟨.q .kml (s% "AbstractTimePrimitiveGroup"), .none⟩)], 0, false⟩,
    ⟨[(⟨.q .kml (s% "styleUrl"), .none⟩)], 0, false⟩,
    ⟨[(⟨.q .kml (s% "AbstractStyleSelectorGroup"), .none⟩)], 0, true⟩,
    ⟨[(⟨.q .kml (s% "Region"), .none⟩)], 0, false⟩,
    ⟨[(⟨.q .kml (s% "Metadata"), .none⟩), (⟨.q .kml (s% "ExtendedData"), .none⟩)], 0, false⟩,
    ⟨[(⟨.q .kml (s% "AbstractFeatureSimpleExtensionGroup"), .none⟩)], 0, true⟩,
    ⟨[(⟨.q .kml (s% "AbstractFeatureObjectExtensionGroup"), .none⟩)], 0, true⟩]
  attrs := []
  text := false

/-- fastkml/schema/ogckml22.xsd:356-362 -/
def xsd_kml_SnippetType : XType where
  name := .q .kml (s% "SnippetType")
  base := (.some (.q .xs (s% "string")))
  particles := []
  attrs := [⟨(s% "maxLines"), (.some (.q .xs (s% "int"))), false, (.some (s% "2"))⟩]
  text := true

/-- fastkml/schema/ogckml22.xsd:366-377 -/
def xsd_kml_AbstractViewType : XType where
  name := .q .kml (s% "AbstractViewType")
  base := (.some (.q .kml (s% "AbstractObjectType")))
  particles := [⟨[(⟨.q .kml (s% "AbstractViewSimpleExtensionGroup"), .none⟩)], 0, true⟩,
    ⟨[(⟨.q .kml (s% "AbstractViewObjectExtensionGroup"), .none⟩)], 0, true⟩]
  attrs := []
  text := false

/-- fastkml/schema/ogckml22.xsd:385-403 -/
def xsd_kml_LookAtType : XType where
  name := .q .kml (s% "LookAtType")
  base := (.some (.q .kml (s% "AbstractViewType")))
  particles := [⟨[(⟨.q .kml (s% "longitude"), .none⟩)], 0, false⟩,
    ⟨[(⟨.q .kml (s% "latitude"), .none⟩)], 0, false⟩,
    ⟨[(⟨.q .kml (s% "altitude"), .none⟩)], 0, false⟩,
    ⟨[(⟨.q .kml (s% "heading"), .none⟩)], 0, false⟩,
    ⟨[(⟨.q .kml (s% "tilt"), .none⟩)], 0, false⟩,
    ⟨[(⟨.q .kml (s% "range"), .none⟩)], 0, false⟩,
    ⟨[(⟨.q .kml (s% "altitudeModeGroup"), .none⟩)], 0, false⟩,
    ⟨[(⟨.q .kml (s% "LookAtSimpleExtensionGroup"), .none⟩)], 0, true⟩,
    ⟨[(⟨.q .kml (s% "LookAtObjectExtensionGroup"), .none⟩)], 0, true⟩]
  attrs := []
  text := false

/-- fastkml/schema/ogckml22.xsd:411-429 -/
def xsd_kml_CameraType : XType where
  name := .q .kml (s% "CameraType")
  base := (.some (.q .kml (s% "AbstractViewType")))
  particles := [⟨[(⟨.q .kml (s% "longitude"), .none⟩)], 0, false⟩,
    ⟨[(⟨.q .kml (s% "latitude"), .none⟩)], 0, false⟩,
    ⟨[(⟨.q .kml (s% "altitude"), .none⟩)], 0, false⟩,
    ⟨[(⟨.q .kml (s% "heading"), .none⟩)], 0, false⟩,
    ⟨[(⟨.q .kml (s% "tilt"), .none⟩)], 0, false⟩,
    ⟨[(⟨.q .kml (s% "roll"), .none⟩)], 0, false⟩,
    ⟨[(⟨.q .kml (s% "altitudeModeGroup"), .none⟩)], 0, false⟩,
    ⟨[(⟨.q .kml (s% "CameraSimpleExtensionGroup"), .none⟩)], 0, true⟩,
    ⟨[(⟨.q .kml (s% "CameraObjectExtensionGroup"), .none⟩)], 0, true⟩]
  attrs := []
  text := false

/-- fastkml/schema/ogckml22.xsd:441-449; wildcard in line 446 left out -/
def xsd_kml_MetadataType : XType where
  name := .q .kml (s% "MetadataType")
  base := .none
  particles := []
  attrs := []
  text := false

/-- fastkml/schema/ogckml22.xsd:452-459; wildcard in line 456 left out -/
def xsd_kml_ExtendedDataType : XType where
  name := .q .kml (s% "ExtendedDataType")
  base := .none
  particles := [⟨[(⟨.q .kml (s% "Data"), .none⟩)], 0, true⟩,
    ⟨[(⟨.q .kml (s% "SchemaData"), .none⟩)], 0, true⟩]
  attrs := []
  text := false

/-- fastkml/schema/ogckml22.xsd:463-474 -/
def xsd_kml_SchemaDataType : XType where
  name := .q .kml (s% "SchemaDataType")
  base := (.some (.q .kml (s% "AbstractObjectType")))
  particles := [⟨[(⟨.q .kml (s% "SimpleData"), .none⟩)], 0, true⟩,
    ⟨[(⟨.q .kml (s% "SchemaDataExtension"), .none⟩)], 0, true⟩]
  attrs := [⟨(s% "schemaUrl"), (.some (.q .xs (s% "anyURI"))), false, .none⟩]
  text := false

/-- fastkml/schema/ogckml22.xsd:478-484 -/
def xsd_kml_SimpleDataType : XType where
  name := .q .kml (s% "SimpleDataType")
  base := (.some (.q .xs (s% "string")))
  particles := []
  attrs := [⟨(s% "name"), (.some (.q .xs (s% "string"))), true, .none⟩]
  text := true

/-- fastkml/schema/ogckml22.xsd:488-499 -/
def xsd_kml_DataType : XType where
  name := .q .kml (s% "DataType")
  base := (.some (.q .kml (s% "AbstractObjectType")))
  particles := [⟨[(⟨.q .kml (s% "displayName"), .none⟩)], 0, false⟩,
    ⟨[(⟨.q .kml (s% "value"), .none⟩)], 1, false⟩,
    ⟨[(⟨.q .kml (s% "DataExtension"), .none⟩)], 0, true⟩]
  attrs := [⟨(s% "name"), (.some (.q .xs (s% "string"))), false, .none⟩]
  text := false

/-- fastkml/schema/ogckml22.xsd:504-515 -/
def xsd_kml_AbstractContainerType : XType where
  name := .q .kml (s% "AbstractContainerType")
  base := (.some (.q .kml (s% "AbstractFeatureType")))
  particles := [⟨[(⟨.q .kml (s% "AbstractContainerSimpleExtensionGroup"), .none⟩)], 0, true⟩,
    ⟨[(⟨.q .kml (s% "AbstractContainerObjectExtensionGroup"), .none⟩)], 0, true⟩]
  attrs := []
  text := false

/-- fastkml/schema/ogckml22.xsd:523-534 -/
def xsd_kml_AbstractGeometryType : XType where
  name := .q .kml (s% "AbstractGeometryType")
  base := (.some (.q .kml (s% "AbstractObjectType")))
  particles := [⟨[(⟨.q .kml (s% "AbstractGeometrySimpleExtensionGroup"), .none⟩)], 0, true⟩,
    ⟨[(⟨.q .kml (s% "AbstractGeometryObjectExtensionGroup"), .none⟩)], 0, true⟩]
  attrs := []
  text := false

/-- fastkml/schema/ogckml22.xsd:542-556 -/
def xsd_kml_AbstractOverlayType : XType where
  name := .q .kml (s% "AbstractOverlayType")
  base := (.some (.q .kml (s% "AbstractFeatureType")))
  particles := [⟨[(⟨.q .kml (s% "color"), .none⟩)], 0, false⟩,
    ⟨[(⟨.q .kml (s% "drawOrder"), .none⟩)], 0, false⟩,
    ⟨[(⟨.q .kml (s% "Icon"), .none⟩)], 0, false⟩,
    ⟨[(⟨.q .kml (s% "AbstractOverlaySimpleExtensionGroup"), .none⟩)], 0, true⟩,
    ⟨[(⟨.q .kml (s% "AbstractOverlayObjectExtensionGroup"), .none⟩)], 0, true⟩]
  attrs := []
  text := false

/-- fastkml/schema/ogckml22.xsd:565-576 -/
def xsd_kml_AbstractStyleSelectorType : XType where
  name := .q .kml (s% "AbstractStyleSelectorType")
  base := (.some (.q .kml (s% "AbstractObjectType")))
  particles := [⟨[(⟨.q .kml (s% "AbstractStyleSelectorSimpleExtensionGroup"), .none⟩)], 0, true⟩,
    ⟨[(⟨.q .kml (s% "AbstractStyleSelectorObjectExtensionGroup"), .none⟩)], 0, true⟩]
  attrs := []
  text := false

/-- fastkml/schema/ogckml22.xsd:585-596 -/
def xsd_kml_AbstractTimePrimitiveType : XType where
  name := .q .kml (s% "AbstractTimePrimitiveType")
  base := (.some (.q .kml (s% "AbstractObjectType")))
  particles := [⟨[(⟨.q .kml (s% "AbstractTimePrimitiveSimpleExtensionGroup"), .none⟩)], 0, true⟩,
    ⟨[(⟨.q .kml (s% "AbstractTimePrimitiveObjectExtensionGroup"), .none⟩)], 0, true⟩]
  attrs := []
  text := false

/-- fastkml/schema/ogckml22.xsd:611-621 -/
def xsd_kml_KmlType : XType where
  name := .q .kml (s% "KmlType")
  base := .none
  particles := [⟨[(⟨.q .kml (s% "NetworkLinkControl"), .none⟩)], 0, false⟩,
    ⟨[(⟨.q .kml (s% "AbstractFeatureGroup"), .none⟩)], 0, false⟩,
    ⟨[(⟨.q .kml (s% "KmlSimpleExtensionGroup"), .none⟩)], 0, true⟩,
    ⟨[(⟨.q .kml (s% "KmlObjectExtensionGroup"), .none⟩)], 0, true⟩]
  attrs := [⟨(s% "hint"), (.some (.q .xs (s% "string"))), false, .none⟩]
  text := false

/-- fastkml/schema/ogckml22.xsd:627-644 -/
def xsd_kml_NetworkLinkControlType : XType where
  name := .q .kml (s% "NetworkLinkControlType")
  base := .none
  particles := [⟨[(⟨.q .kml (s% "minRefreshPeriod"), .none⟩)], 0, false⟩,
    ⟨[(⟨.q .kml (s% "maxSessionLength"), .none⟩)], 0, false⟩,
    ⟨[(⟨.q .kml (s% "cookie"), .none⟩)], 0, false⟩,
    ⟨[(⟨.q .kml (s% "message"), .none⟩)], 0, false⟩,
    ⟨[(⟨.q .kml (s% "linkName"), .none⟩)], 0, false⟩,
    ⟨[(⟨.q .kml (s% "linkDescription"), .none⟩)], 0, false⟩,
    ⟨[(⟨.q .kml (s% "linkSnippet"), .none⟩)], 0, false⟩,
    ⟨[(⟨.q .kml (s% "expires"), .none⟩)], 0, false⟩,
    ⟨[(⟨.q .kml (s% "Update"), .none⟩)], 0, false⟩,
    ⟨[(⟨.q .kml (s% "AbstractViewGroup"), .none⟩)], 0, false⟩,
    ⟨[(⟨.q .kml (s% "NetworkLinkControlSimpleExtensionGroup"), .none⟩)], 0, true⟩,
    ⟨[(⟨.q .kml (s% "NetworkLinkControlObjectExtensionGroup"), .none⟩)], 0, true⟩]
  attrs := []
  text := false

/-- fastkml/schema/ogckml22.xsd:652-666 -/
def xsd_kml_DocumentType : XType where
  name := .q .kml (s% "DocumentType")
  base := (.some (.q .kml (s% "AbstractContainerType")))
  particles := [⟨[(⟨.q .kml (s% "Schema"), .none⟩)], 0, true⟩,
    ⟨[(⟨.q .kml (s% "AbstractFeatureGroup"), .none⟩)], 0, true⟩,
    ⟨[(⟨.q .kml (s% "DocumentSimpleExtensionGroup"), .none⟩)], 0, true⟩,
    ⟨[(⟨.q .kml (s% "DocumentObjectExtensionGroup"), .none⟩)], 0, true⟩]
  attrs := []
  text := false

/-- fastkml/schema/ogckml22.xsd:673-680 -/
def xsd_kml_SchemaType : XType where
  name := .q .kml (s% "SchemaType")
  base := .none
  particles := [⟨[(⟨.q .kml (s% "SimpleField"), .none⟩)], 0, true⟩,
    ⟨[(⟨.q .kml (s% "SchemaExtension"), .none⟩)], 0, true⟩]
  attrs := [⟨(s% "name"), (.some (.q .xs (s% "string"))), false, .none⟩,
    ⟨(s% "id"), (.some (.q .xs (s% "ID"))), false, .none⟩]
  text := false

/-- fastkml/schema/ogckml22.xsd:684-692 -/
def xsd_kml_SimpleFieldType : XType where
  name := .q .kml (s% "SimpleFieldType")
  base := .none
  particles := [⟨[(⟨.q .kml (s% "displayName"), .none⟩)], 0, false⟩,
    ⟨[(⟨.q .kml (s% "SimpleFieldExtension"), .none⟩)], 0, true⟩]
  attrs := [⟨(s% "type"), (.some (.q .xs (s% "string"))), false, .none⟩,
    ⟨(s% "name"), (.some (.q .xs (s% "string"))), false, .none⟩]
  text := false

/-- fastkml/schema/ogckml22.xsd:697-710 -/
def xsd_kml_FolderType : XType where
  name := .q .kml (s% "FolderType")
  base := (.some (.q .kml (s% "AbstractContainerType")))
  particles := [⟨[(⟨.q .kml (s% "AbstractFeatureGroup"), .none⟩)], 0, true⟩,
    ⟨[(⟨.q .kml (s% "FolderSimpleExtensionGroup"), .none⟩)], 0, true⟩,
    ⟨[(⟨.q .kml (s% "FolderObjectExtensionGroup"), .none⟩)], 0, true⟩]
  attrs := []
  text := false

/-- fastkml/schema/ogckml22.xsd:718-730 -/
def xsd_kml_PlacemarkType : XType where
  name := .q .kml (s% "PlacemarkType")
  base := (.some (.q .kml (s% "AbstractFeatureType")))
  particles := [⟨[(⟨.q .kml (s% "AbstractGeometryGroup"), .none⟩)], 0, false⟩,
    ⟨[(⟨.q .kml (s% "PlacemarkSimpleExtensionGroup"), .none⟩)], 0, true⟩,
    ⟨[(⟨.q .kml (s% "PlacemarkObjectExtensionGroup"), .none⟩)], 0, true⟩]
  attrs := []
  text := false

/-- fastkml/schema/ogckml22.xsd:738-758 -/
def xsd_kml_NetworkLinkType : XType where
  name := .q .kml (s% "NetworkLinkType")
  base := (.some (.q .kml (s% "AbstractFeatureType")))
  particles := [⟨[(⟨.q .kml (s% "refreshVisibility"), .none⟩)], 0, false⟩,
    ⟨[(⟨.q .kml (s% "flyToView"), .none⟩)], 0, false⟩,
    ⟨[(⟨.q .kml (s% "Url"), .none⟩), (⟨.q .kml (s% "Link"), .none⟩)], 0, false⟩,
    ⟨[(⟨.q .kml (s% "NetworkLinkSimpleExtensionGroup"), .none⟩)], 0, true⟩,
    ⟨[(⟨.q .kml (s% "NetworkLinkObjectExtensionGroup"), .none⟩)], 0, true⟩]
  attrs := []
  text := false

/-- fastkml/schema/ogckml22.xsd:766-779 -/
def xsd_kml_RegionType : XType where
  name := .q .kml (s% "RegionType")
  base := (.some (.q .kml (s% "AbstractObjectType")))
  particles := [⟨[(⟨.q .kml (s% "LatLonAltBox"), .none⟩)], 0, false⟩,
    ⟨[(⟨.q .kml (s% "Lod"), .none⟩)], 0, false⟩,
    ⟨[(⟨.q .kml (s% "RegionSimpleExtensionGroup"), .none⟩)], 0, true⟩,
    ⟨[(⟨.q .kml (s% "RegionObjectExtensionGroup"), .none⟩)], 0, true⟩]
  attrs := []
  text := false

/-- fastkml/schema/ogckml22.xsd:787-801 -/
def xsd_kml_LatLonAltBoxType : XType where
  name := .q .kml (s% "LatLonAltBoxType")
  base := (.some (.q .kml (s% "AbstractLatLonBoxType")))
  particles := [⟨[(⟨.q .kml (s% "minAltitude"), .none⟩)], 0, false⟩,
    ⟨[(⟨.q .kml (s% "maxAltitude"), .none⟩)], 0, false⟩,
    ⟨[(⟨.q .kml (s% "altitudeModeGroup"), .none⟩)], 0, false⟩,
    ⟨[(⟨.q .kml (s% "LatLonAltBoxSimpleExtensionGroup"), .none⟩)], 0, true⟩,
    ⟨[(⟨.q .kml (s% "LatLonAltBoxObjectExtensionGroup"), .none⟩)], 0, true⟩]
  attrs := []
  text := false

/-- fastkml/schema/ogckml22.xsd:809-824 -/
def xsd_kml_LodType : XType where
  name := .q .kml (s% "LodType")
  base := (.some (.q .kml (s% "AbstractObjectType")))
  particles := [⟨[(⟨.q .kml (s% "minLodPixels"), .none⟩)], 0, false⟩,
    ⟨[(⟨.q .kml (s% "maxLodPixels"), .none⟩)], 0, false⟩,
    ⟨[(⟨.q .kml (s% "minFadeExtent"), .none⟩)], 0, false⟩,
    ⟨[(⟨.q .kml (s% "maxFadeExtent"), .none⟩)], 0, false⟩,
    ⟨[(⟨.q .kml (s% "LodSimpleExtensionGroup"), .none⟩)], 0, true⟩,
    ⟨[(⟨.q .kml (s% "LodObjectExtensionGroup"), .none⟩)], 0, true⟩]
  attrs := []
  text := false

/-- fastkml/schema/ogckml22.xsd:839-857 -/
def xsd_kml_LinkType : XType where
  name := .q .kml (s% "LinkType")
  base := (.some (.q .kml (s% "BasicLinkType")))
  particles := [⟨[(⟨.q .kml (s% "refreshMode"), .none⟩)], 0, false⟩,
    ⟨[(⟨.q .kml (s% "refreshInterval"), .none⟩)], 0, false⟩,
    ⟨[(⟨.q .kml (s% "viewRefreshMode"), .none⟩)], 0, false⟩,
    ⟨[(⟨.q .kml (s% "viewRefreshTime"), .none⟩)], 0, false⟩,
    ⟨[(⟨.q .kml (s% "viewBoundScale"), .none⟩)], 0, false⟩,
    ⟨[(⟨.q .kml (s% "viewFormat"), .none⟩)], 0, false⟩,
    ⟨[(⟨.q .kml (s% "httpQuery"), .none⟩)], 0, false⟩,
    ⟨[(⟨.q .kml (s% "LinkSimpleExtensionGroup"), .none⟩)], 0, true⟩,
    ⟨[(⟨.q .kml (s% "LinkObjectExtensionGroup"), .none⟩)], 0, true⟩]
  attrs := []
  text := false

/-- fastkml/schema/ogckml22.xsd:865-878 -/
def xsd_kml_MultiGeometryType : XType where
  name := .q .kml (s% "MultiGeometryType")
  base := (.some (.q .kml (s% "AbstractGeometryType")))
  particles := [⟨[(⟨.q .kml (s% "AbstractGeometryGroup"), .none⟩)], 0, true⟩,
    ⟨[(⟨.q .kml (s% "MultiGeometrySimpleExtensionGroup"), .none⟩)], 0, true⟩,
    ⟨[(⟨.q .kml (s% "MultiGeometryObjectExtensionGroup"), .none⟩)], 0, true⟩]
  attrs := []
  text := false

/-- fastkml/schema/ogckml22.xsd:886-900 -/
def xsd_kml_PointType : XType where
  name := .q .kml (s% "PointType")
  base := (.some (.q .kml (s% "AbstractGeometryType")))
  particles := [⟨[(⟨.q .kml (s% "extrude"), .none⟩)], 0, false⟩,
    ⟨[(⟨.q .kml (s% "altitudeModeGroup"), .none⟩)], 0, false⟩,
    ⟨[(⟨.q .kml (s% "coordinates"), .none⟩)], 0, false⟩,
    ⟨[(⟨.q .kml (s% "PointSimpleExtensionGroup"), .none⟩)], 0, true⟩,
    ⟨[(⟨.q .kml (s% "PointObjectExtensionGroup"), .none⟩)], 0, true⟩]
  attrs := []
  text := false

/-- fastkml/schema/ogckml22.xsd:908-923 -/
def xsd_kml_LineStringType : XType where
  name := .q .kml (s% "LineStringType")
  base := (.some (.q .kml (s% "AbstractGeometryType")))
  particles := [⟨[(⟨.q .kml (s% "extrude"), .none⟩)], 0, false⟩,
    ⟨[(⟨.q .kml (s% "tessellate"), .none⟩)], 0, false⟩,
    ⟨[(⟨.q .kml (s% "altitudeModeGroup"), .none⟩)], 0, false⟩,
    ⟨[(⟨.q .kml (s% "coordinates"), .none⟩)], 0, false⟩,
    ⟨[(⟨.q .kml (s% "LineStringSimpleExtensionGroup"), .none⟩)], 0, true⟩,
    ⟨[(⟨.q .kml (s% "LineStringObjectExtensionGroup"), .none⟩)], 0, true⟩]
  attrs := []
  text := false

/-- fastkml/schema/ogckml22.xsd:931-946 -/
def xsd_kml_LinearRingType : XType where
  name := .q .kml (s% "LinearRingType")
  base := (.some (.q .kml (s% "AbstractGeometryType")))
  particles := [⟨[(⟨.q .kml (s% "extrude"), .none⟩)], 0, false⟩,
    ⟨[(⟨.q .kml (s% "tessellate"), .none⟩)], 0, false⟩,
    ⟨[(⟨.q .kml (s% "altitudeModeGroup"), .none⟩)], 0, false⟩,
    ⟨[(⟨.q .kml (s% "coordinates"), .none⟩)], 0, false⟩,
    ⟨[(⟨.q .kml (s% "LinearRingSimpleExtensionGroup"), .none⟩)], 0, true⟩,
    ⟨[(⟨.q .kml (s% "LinearRingObjectExtensionGroup"), .none⟩)], 0, true⟩]
  attrs := []
  text := false

/-- fastkml/schema/ogckml22.xsd:954-971 -/
def xsd_kml_PolygonType : XType where
  name := .q .kml (s% "PolygonType")
  base := (.some (.q .kml (s% "AbstractGeometryType")))
  particles := [⟨[(⟨.q .kml (s% "extrude"), .none⟩)], 0, false⟩,
    ⟨[(⟨.q .kml (s% "tessellate"), .none⟩)], 0, false⟩,
    ⟨[(⟨.q .kml (s% "altitudeModeGroup"), .none⟩)], 0, false⟩,
    ⟨[(⟨.q .kml (s% "outerBoundaryIs"), .none⟩)], 0, false⟩,
    ⟨[(⟨.q .kml (s% "innerBoundaryIs"), .none⟩)], 0, true⟩,
    ⟨[(⟨.q .kml (s% "PolygonSimpleExtensionGroup"), .none⟩)], 0, true⟩,
    ⟨[(⟨.q .kml (s% "PolygonObjectExtensionGroup"), .none⟩)], 0, true⟩]
  attrs := []
  text := false

/-- fastkml/schema/ogckml22.xsd:979-987 -/
def xsd_kml_BoundaryType : XType where
  name := .q .kml (s% "BoundaryType")
  base := .none
  particles := [⟨[(⟨.q .kml (s% "LinearRing"), .none⟩)], 0, false⟩,
    ⟨[(⟨.q .kml (s% "BoundarySimpleExtensionGroup"), .none⟩)], 0, true⟩,
    ⟨[(⟨.q .kml (s% "BoundaryObjectExtensionGroup"), .none⟩)], 0, true⟩]
  attrs := []
  text := false

/-- fastkml/schema/ogckml22.xsd:995-1012 -/
def xsd_kml_ModelType : XType where
  name := .q .kml (s% "ModelType")
  base := (.some (.q .kml (s% "AbstractGeometryType")))
  particles := [⟨[(⟨.q .kml (s% "altitudeModeGroup"), .none⟩)], 0, false⟩,
    ⟨[(⟨.q .kml (s% "Location"), .none⟩)], 0, false⟩,
    ⟨[(⟨.q .kml (s% "Orientation"), .none⟩)], 0, false⟩,
    ⟨[(⟨.q .kml (s% "Scale"), .none⟩)], 0, false⟩,
    ⟨[(⟨.q .kml (s% "Link"), .none⟩)], 0, false⟩,
    ⟨[(⟨.q .kml (s% "ResourceMap"), .none⟩)], 0, false⟩,
    ⟨[(⟨.q .kml (s% "ModelSimpleExtensionGroup"), .none⟩)], 0, true⟩,
    ⟨[(⟨.q .kml (s% "ModelObjectExtensionGroup"), .none⟩)], 0, true⟩]
  attrs := []
  text := false

/-- fastkml/schema/ogckml22.xsd:1020-1034 -/
def xsd_kml_LocationType : XType where
  name := .q .kml (s% "LocationType")
  base := (.some (.q .kml (s% "AbstractObjectType")))
  particles := [⟨[(⟨.q .kml (s% "longitude"), .none⟩)], 0, false⟩,
    ⟨[(⟨.q .kml (s% "latitude"), .none⟩)], 0, false⟩,
    ⟨[(⟨.q .kml (s% "altitude"), .none⟩)], 0, false⟩,
    ⟨[(⟨.q .kml (s% "LocationSimpleExtensionGroup"), .none⟩)], 0, true⟩,
    ⟨[(⟨.q .kml (s% "LocationObjectExtensionGroup"), .none⟩)], 0, true⟩]
  attrs := []
  text := false

/-- fastkml/schema/ogckml22.xsd:1042-1056 -/
def xsd_kml_OrientationType : XType where
  name := .q .kml (s% "OrientationType")
  base := (.some (.q .kml (s% "AbstractObjectType")))
  particles := [⟨[(⟨.q .kml (s% "heading"), .none⟩)], 0, false⟩,
    ⟨[(⟨.q .kml (s% "tilt"), .none⟩)], 0, false⟩,
    ⟨[(⟨.q .kml (s% "roll"), .none⟩)], 0, false⟩,
    ⟨[(⟨.q .kml (s% "OrientationSimpleExtensionGroup"), .none⟩)], 0, true⟩,
    ⟨[(⟨.q .kml (s% "OrientationObjectExtensionGroup"), .none⟩)], 0, true⟩]
  attrs := []
  text := false

/-- fastkml/schema/ogckml22.xsd:1064-1078 -/
def xsd_kml_ScaleType : XType where
  name := .q .kml (s% "ScaleType")
  base := (.some (.q .kml (s% "AbstractObjectType")))
  particles := [⟨[(⟨.q .kml (s% "x"), .none⟩)], 0, false⟩,
    ⟨[(⟨.q .kml (s% "y"), .none⟩)], 0, false⟩,
    ⟨[(⟨.q .kml (s% "z"), .none⟩)], 0, false⟩,
    ⟨[(⟨.q .kml (s% "ScaleSimpleExtensionGroup"), .none⟩)], 0, true⟩,
    ⟨[(⟨.q .kml (s% "ScaleObjectExtensionGroup"), .none⟩)], 0, true⟩]
  attrs := []
  text := false

/-- fastkml/schema/ogckml22.xsd:1086-1098 -/
def xsd_kml_ResourceMapType : XType where
  name := .q .kml (s% "ResourceMapType")
  base := (.some (.q .kml (s% "AbstractObjectType")))
  particles := [⟨[(⟨.q .kml (s% "Alias"), .none⟩)], 0, true⟩,
    ⟨[(⟨.q .kml (s% "ResourceMapSimpleExtensionGroup"), .none⟩)], 0, true⟩,
    ⟨[(⟨.q .kml (s% "ResourceMapObjectExtensionGroup"), .none⟩)], 0, true⟩]
  attrs := []
  text := false

/-- fastkml/schema/ogckml22.xsd:1106-1119 -/
def xsd_kml_AliasType : XType where
  name := .q .kml (s% "AliasType")
  base := (.some (.q .kml (s% "AbstractObjectType")))
  particles := [⟨[(⟨.q .kml (s% "targetHref"), .none⟩)], 0, false⟩,
    ⟨[(⟨.q .kml (s% "sourceHref"), .none⟩)], 0, false⟩,
    ⟨[(⟨.q .kml (s% "AliasSimpleExtensionGroup"), .none⟩)], 0, true⟩,
    ⟨[(⟨.q .kml (s% "AliasObjectExtensionGroup"), .none⟩)], 0, true⟩]
  attrs := []
  text := false

/-- fastkml/schema/ogckml22.xsd:1127-1141 -/
def xsd_kml_GroundOverlayType : XType where
  name := .q .kml (s% "GroundOverlayType")
  base := (.some (.q .kml (s% "AbstractOverlayType")))
  particles := [⟨[(⟨.q .kml (s% "altitude"), .none⟩)], 0, false⟩,
    ⟨[(⟨.q .kml (s% "altitudeModeGroup"), .none⟩)], 0, false⟩,
    ⟨[(⟨.q .kml (s% "LatLonBox"), .none⟩)], 0, false⟩,
    ⟨[(⟨.q .kml (s% "GroundOverlaySimpleExtensionGroup"), .none⟩)], 0, true⟩,
    ⟨[(⟨.q .kml (s% "GroundOverlayObjectExtensionGroup"), .none⟩)], 0, true⟩]
  attrs := []
  text := false

/-- fastkml/schema/ogckml22.xsd:1147-1162 -/
def xsd_kml_AbstractLatLonBoxType : XType where
  name := .q .kml (s% "AbstractLatLonBoxType")
  base := (.some (.q .kml (s% "AbstractObjectType")))
  particles := [⟨[(⟨.q .kml (s% "north"), .none⟩)], 0, false⟩,
    ⟨[(⟨.q .kml (s% "south"), .none⟩)], 0, false⟩,
    ⟨[(⟨.q .kml (s% "east"), .none⟩)], 0, false⟩,
    ⟨[(⟨.q .kml (s% "west"), .none⟩)], 0, false⟩,
    ⟨[(⟨.q .kml (s% "AbstractLatLonBoxSimpleExtensionGroup"), .none⟩)], 0, true⟩,
    ⟨[(⟨.q .kml (s% "AbstractLatLonBoxObjectExtensionGroup"), .none⟩)], 0, true⟩]
  attrs := []
  text := false

/-- fastkml/schema/ogckml22.xsd:1170-1182 -/
def xsd_kml_LatLonBoxType : XType where
  name := .q .kml (s% "LatLonBoxType")
  base := (.some (.q .kml (s% "AbstractLatLonBoxType")))
  particles := [⟨[(⟨.q .kml (s% "rotation"), .none⟩)], 0, false⟩,
    ⟨[(⟨.q .kml (s% "LatLonBoxSimpleExtensionGroup"), .none⟩)], 0, true⟩,
    ⟨[(⟨.q .kml (s% "LatLonBoxObjectExtensionGroup"), .none⟩)], 0, true⟩]
  attrs := []
  text := false

/-- fastkml/schema/ogckml22.xsd:1190-1206 -/
def xsd_kml_ScreenOverlayType : XType where
  name := .q .kml (s% "ScreenOverlayType")
  base := (.some (.q .kml (s% "AbstractOverlayType")))
  particles := [⟨[(⟨.q .kml (s% "overlayXY"), .none⟩)], 0, false⟩,
    ⟨[(⟨.q .kml (s% "screenXY"), .none⟩)], 0, false⟩,
    ⟨[(⟨.q .kml (s% "rotationXY"), .none⟩)], 0, false⟩,
    ⟨[(⟨.q .kml (s% "size"), .none⟩)], 0, false⟩,
    ⟨[(⟨.q .kml (s% "rotation"), .none⟩)], 0, false⟩,
    ⟨[(⟨.q .kml (s% "ScreenOverlaySimpleExtensionGroup"), .none⟩)], 0, true⟩,
    ⟨[(⟨.q .kml (s% "ScreenOverlayObjectExtensionGroup"), .none⟩)], 0, true⟩]
  attrs := []
  text := false

/-- fastkml/schema/ogckml22.xsd:1214-1230 -/
def xsd_kml_PhotoOverlayType : XType where
  name := .q .kml (s% "PhotoOverlayType")
  base := (.some (.q .kml (s% "AbstractOverlayType")))
  particles := [⟨[(⟨.q .kml (s% "rotation"), .none⟩)], 0, false⟩,
    ⟨[(⟨.q .kml (s% "ViewVolume"), .none⟩)], 0, false⟩,
    ⟨[(⟨.q .kml (s% "ImagePyramid"), .none⟩)], 0, false⟩,
    ⟨[(⟨.q .kml (s% "Point"), .none⟩)], 0, false⟩,
    ⟨[(⟨.q .kml (s% "shape"), .none⟩)], 0, false⟩,
    ⟨[(⟨.q .kml (s% "PhotoOverlaySimpleExtensionGroup"), .none⟩)], 0, true⟩,
    ⟨[(⟨.q .kml (s% "PhotoOverlayObjectExtensionGroup"), .none⟩)], 0, true⟩]
  attrs := []
  text := false

/-- fastkml/schema/ogckml22.xsd:1238-1254 -/
def xsd_kml_ViewVolumeType : XType where
  name := .q .kml (s% "ViewVolumeType")
  base := (.some (.q .kml (s% "AbstractObjectType")))
  particles := [⟨[(⟨.q .kml (s% "leftFov"), .none⟩)], 0, false⟩,
    ⟨[(⟨.q .kml (s% "rightFov"), .none⟩)], 0, false⟩,
    ⟨[(⟨.q .kml (s% "bottomFov"), .none⟩)], 0, false⟩,
    ⟨[(⟨.q .kml (s% "topFov"), .none⟩)], 0, false⟩,
    ⟨[(⟨.q .kml (s% "near"), .none⟩)], 0, false⟩,
    ⟨[(⟨.q .kml (s% "ViewVolumeSimpleExtensionGroup"), .none⟩)], 0, true⟩,
    ⟨[(⟨.q .kml (s% "ViewVolumeObjectExtensionGroup"), .none⟩)], 0, true⟩]
  attrs := []
  text := false

/-- fastkml/schema/ogckml22.xsd:1262-1277 -/
def xsd_kml_ImagePyramidType : XType where
  name := .q .kml (s% "ImagePyramidType")
  base := (.some (.q .kml (s% "AbstractObjectType")))
  particles := [⟨[(⟨.q .kml (s% "tileSize"), .none⟩)], 0, false⟩,
    ⟨[(⟨.q .kml (s% "maxWidth"), .none⟩)], 0, false⟩,
    ⟨[(⟨.q .kml (s% "maxHeight"), .none⟩)], 0, false⟩,
    ⟨[(⟨.q .kml (s% "gridOrigin"), .none⟩)], 0, false⟩,
    ⟨[(⟨.q .kml (s% "ImagePyramidSimpleExtensionGroup"), .none⟩)], 0, true⟩,
    ⟨[(⟨.q .kml (s% "ImagePyramidObjectExtensionGroup"), .none⟩)], 0, true⟩]
  attrs := []
  text := false

/-- fastkml/schema/ogckml22.xsd:1285-1302 -/
def xsd_kml_StyleType : XType where
  name := .q .kml (s% "StyleType")
  base := (.some (.q .kml (s% "AbstractStyleSelectorType")))
  particles := [⟨[(⟨.q .kml (s% "IconStyle"), .none⟩)], 0, false⟩,
    ⟨[(⟨.q .kml (s% "LabelStyle"), .none⟩)], 0, false⟩,
    ⟨[(⟨.q .kml (s% "LineStyle"), .none⟩)], 0, false⟩,
    ⟨[(⟨.q .kml (s% "PolyStyle"), .none⟩)], 0, false⟩,
    ⟨[(⟨.q .kml (s% "BalloonStyle"), .none⟩)], 0, false⟩,
    ⟨[(⟨.q .kml (s% "ListStyle"), .none⟩)], 0, false⟩,
    ⟨[(⟨.q .kml (s% "StyleSimpleExtensionGroup"), .none⟩)], 0, true⟩,
    ⟨[(⟨.q .kml (s% "StyleObjectExtensionGroup"), .none⟩)], 0, true⟩]
  attrs := []
  text := false

/-- fastkml/schema/ogckml22.xsd:1310-1322 -/
def xsd_kml_StyleMapType : XType where
  name := .q .kml (s% "StyleMapType")
  base := (.some (.q .kml (s% "AbstractStyleSelectorType")))
  particles := [⟨[(⟨.q .kml (s% "Pair"), .none⟩)], 0, true⟩,
    ⟨[(⟨.q .kml (s% "StyleMapSimpleExtensionGroup"), .none⟩)], 0, true⟩,
    ⟨[(⟨.q .kml (s% "StyleMapObjectExtensionGroup"), .none⟩)], 0, true⟩]
  attrs := []
  text := false

/-- fastkml/schema/ogckml22.xsd:1330-1344 -/
def xsd_kml_PairType : XType where
  name := .q .kml (s% "PairType")
  base := (.some (.q .kml (s% "AbstractObjectType")))
  particles := [⟨[(⟨.q .kml (s% "key"), .none⟩)], 0, false⟩,
    ⟨[(⟨.q .kml (s% "styleUrl"), .none⟩)], 0, false⟩,
    ⟨[(⟨.q .kml (s% "AbstractStyleSelectorGroup"), .none⟩)], 0, false⟩,
    ⟨[(⟨.q .kml (s% "PairSimpleExtensionGroup"), .none⟩)], 0, true⟩,
    ⟨[(⟨.q .kml (s% "PairObjectExtensionGroup"), .none⟩)], 0, true⟩]
  attrs := []
  text := false

/-- fastkml/schema/ogckml22.xsd:1352-1363 -/
def xsd_kml_AbstractSubStyleType : XType where
  name := .q .kml (s% "AbstractSubStyleType")
  base := (.some (.q .kml (s% "AbstractObjectType")))
  particles := [⟨[(⟨.q .kml (s% "AbstractSubStyleSimpleExtensionGroup"), .none⟩)], 0, true⟩,
    ⟨[(⟨.q .kml (s% "AbstractSubStyleObjectExtensionGroup"), .none⟩)], 0, true⟩]
  attrs := []
  text := false

/-- fastkml/schema/ogckml22.xsd:1371-1384 -/
def xsd_kml_AbstractColorStyleType : XType where
  name := .q .kml (s% "AbstractColorStyleType")
  base := (.some (.q .kml (s% "AbstractSubStyleType")))
  particles := [⟨[(⟨.q .kml (s% "color"), .none⟩)], 0, false⟩,
    ⟨[(⟨.q .kml (s% "colorMode"), .none⟩)], 0, false⟩,
    ⟨[(⟨.q .kml (s% "AbstractColorStyleSimpleExtensionGroup"), .none⟩)], 0, true⟩,
    ⟨[(⟨.q .kml (s% "AbstractColorStyleObjectExtensionGroup"), .none⟩)], 0, true⟩]
  attrs := []
  text := false

/-- fastkml/schema/ogckml22.xsd:1392-1407 -/
def xsd_kml_IconStyleType : XType where
  name := .q .kml (s% "IconStyleType")
  base := (.some (.q .kml (s% "AbstractColorStyleType")))
  particles := [⟨[(⟨.q .kml (s% "scale"), .none⟩)], 0, false⟩,
    ⟨[(⟨.q .kml (s% "heading"), .none⟩)], 0, false⟩,
    ⟨[(⟨.q .kml (s% "Icon"), .some (.q .kml (s% "BasicLinkType"))⟩)], 0, false⟩,
    ⟨[(⟨.q .kml (s% "hotSpot"), .none⟩)], 0, false⟩,
    ⟨[(⟨.q .kml (s% "IconStyleSimpleExtensionGroup"), .none⟩)], 0, true⟩,
    ⟨[(⟨.q .kml (s% "IconStyleObjectExtensionGroup"), .none⟩)], 0, true⟩]
  attrs := []
  text := false

/-- fastkml/schema/ogckml22.xsd:1413-1425 -/
def xsd_kml_BasicLinkType : XType where
  name := .q .kml (s% "BasicLinkType")
  base := (.some (.q .kml (s% "AbstractObjectType")))
  particles := [⟨[(⟨.q .kml (s% "href"), .none⟩)], 0, false⟩,
    ⟨[(⟨.q .kml (s% "BasicLinkSimpleExtensionGroup"), .none⟩)], 0, true⟩,
    ⟨[(⟨.q .kml (s% "BasicLinkObjectExtensionGroup"), .none⟩)], 0, true⟩]
  attrs := []
  text := false

/-- fastkml/schema/ogckml22.xsd:1433-1445 -/
def xsd_kml_LabelStyleType : XType where
  name := .q .kml (s% "LabelStyleType")
  base := (.some (.q .kml (s% "AbstractColorStyleType")))
  particles := [⟨[(⟨.q .kml (s% "scale"), .none⟩)], 0, false⟩,
    ⟨[(⟨.q .kml (s% "LabelStyleSimpleExtensionGroup"), .none⟩)], 0, true⟩,
    ⟨[(⟨.q .kml (s% "LabelStyleObjectExtensionGroup"), .none⟩)], 0, true⟩]
  attrs := []
  text := false

/-- fastkml/schema/ogckml22.xsd:1453-1465 -/
def xsd_kml_LineStyleType : XType where
  name := .q .kml (s% "LineStyleType")
  base := (.some (.q .kml (s% "AbstractColorStyleType")))
  particles := [⟨[(⟨.q .kml (s% "width"), .none⟩)], 0, false⟩,
    ⟨[(⟨.q .kml (s% "LineStyleSimpleExtensionGroup"), .none⟩)], 0, true⟩,
    ⟨[(⟨.q .kml (s% "LineStyleObjectExtensionGroup"), .none⟩)], 0, true⟩]
  attrs := []
  text := false

/-- fastkml/schema/ogckml22.xsd:1473-1486 -/
def xsd_kml_PolyStyleType : XType where
  name := .q .kml (s% "PolyStyleType")
  base := (.some (.q .kml (s% "AbstractColorStyleType")))
  particles := [⟨[(⟨.q .kml (s% "fill"), .none⟩)], 0, false⟩,
    ⟨[(⟨.q .kml (s% "outline"), .none⟩)], 0, false⟩,
    ⟨[(⟨.q .kml (s% "PolyStyleSimpleExtensionGroup"), .none⟩)], 0, true⟩,
    ⟨[(⟨.q .kml (s% "PolyStyleObjectExtensionGroup"), .none⟩)], 0, true⟩]
  attrs := []
  text := false

/-- fastkml/schema/ogckml22.xsd:1494-1515 -/
def xsd_kml_BalloonStyleType : XType where
  name := .q .kml (s% "BalloonStyleType")
  base := (.some (.q .kml (s% "AbstractSubStyleType")))
  particles := [⟨[(⟨.q .kml (s% "color"), .none⟩), (⟨.q .kml (s% "bgColor"), .none⟩)], 0, false⟩,
    ⟨[(⟨.q .kml (s% "textColor"), .none⟩)], 0, false⟩,
    ⟨[(⟨.q .kml (s% "text"), .none⟩)], 0, false⟩,
    ⟨[(⟨.q .kml (s% "displayMode"), .none⟩)], 0, false⟩,
    ⟨[(⟨.q .kml (s% "BalloonStyleSimpleExtensionGroup"), .none⟩)], 0, true⟩,
    ⟨[(⟨.q .kml (s% "BalloonStyleObjectExtensionGroup"), .none⟩)], 0, true⟩]
  attrs := []
  text := false

/-- fastkml/schema/ogckml22.xsd:1523-1538 -/
def xsd_kml_ListStyleType : XType where
  name := .q .kml (s% "ListStyleType")
  base := (.some (.q .kml (s% "AbstractSubStyleType")))
  particles := [⟨[(⟨.q .kml (s% "listItemType"), .none⟩)], 0, false⟩,
    ⟨[(⟨.q .kml (s% "bgColor"), .none⟩)], 0, false⟩,
    ⟨[(⟨.q .kml (s% "ItemIcon"), .none⟩)], 0, true⟩,
    ⟨[(⟨.q .kml (s% "maxSnippetLines"), .none⟩)], 0, false⟩,
    ⟨[(⟨.q .kml (s% "ListStyleSimpleExtensionGroup"), .none⟩)], 0, true⟩,
    ⟨[(⟨.q .kml (s% "ListStyleObjectExtensionGroup"), .none⟩)], 0, true⟩]
  attrs := []
  text := false

/-- fastkml/schema/ogckml22.xsd:1546-1559 -/
def xsd_kml_ItemIconType : XType where
  name := .q .kml (s% "ItemIconType")
  base := (.some (.q .kml (s% "AbstractObjectType")))
  particles := [⟨[(⟨.q .kml (s% "state"), .none⟩)], 0, false⟩,
    ⟨[(⟨.q .kml (s% "href"), .none⟩)], 0, false⟩,
    ⟨[(⟨.q .kml (s% "ItemIconSimpleExtensionGroup"), .none⟩)], 0, true⟩,
    ⟨[(⟨.q .kml (s% "ItemIconObjectExtensionGroup"), .none⟩)], 0, true⟩]
  attrs := []
  text := false

/-- fastkml/schema/ogckml22.xsd:1567-1579 -/
def xsd_kml_TimeStampType : XType where
  name := .q .kml (s% "TimeStampType")
  base := (.some (.q .kml (s% "AbstractTimePrimitiveType")))
  particles := [⟨[(⟨.q .kml (s% "when"), .none⟩)], 0, false⟩,
    ⟨[(⟨.q .kml (s% "TimeStampSimpleExtensionGroup"), .none⟩)], 0, true⟩,
    ⟨[(⟨.q .kml (s% "TimeStampObjectExtensionGroup"), .none⟩)], 0, true⟩]
  attrs := []
  text := false

/-- fastkml/schema/ogckml22.xsd:1587-1600 -/
def xsd_kml_TimeSpanType : XType where
  name := .q .kml (s% "TimeSpanType")
  base := (.some (.q .kml (s% "AbstractTimePrimitiveType")))
  particles := [⟨[(⟨.q .kml (s% "begin"), .none⟩)], 0, false⟩,
    ⟨[(⟨.q .kml (s% "end"), .none⟩)], 0, false⟩,
    ⟨[(⟨.q .kml (s% "TimeSpanSimpleExtensionGroup"), .none⟩)], 0, true⟩,
    ⟨[(⟨.q .kml (s% "TimeSpanObjectExtensionGroup"), .none⟩)], 0, true⟩]
  attrs := []
  text := false

/-- fastkml/schema/ogckml22.xsd:1607-1619 -/
def xsd_kml_UpdateType : XType where
  name := .q .kml (s% "UpdateType")
  base := .none
  particles := [⟨[(⟨.q .kml (s% "targetHref"), .none⟩)], 1, false⟩,
    ⟨[(⟨.q .kml (s% "Create"), .none⟩), (⟨.q .kml (s% "Delete"), .none⟩), (⟨.q .kml (s% "Change"), .none⟩), (⟨.q .kml (s% "UpdateOpExtensionGroup"), .none⟩)], 1, true⟩,
    ⟨[(⟨.q .kml (s% "UpdateExtensionGroup"), .none⟩)], 0, true⟩]
  attrs := []
  text := false

/-- fastkml/schema/ogckml22.xsd:1624-1629 -/
def xsd_kml_CreateType : XType where
  name := .q .kml (s% "CreateType")
  base := .none
  particles := [⟨[(⟨.q .kml (s% "AbstractContainerGroup"), .none⟩)], 0, true⟩]
  attrs := []
  text := false

/-- fastkml/schema/ogckml22.xsd:1632-1637 -/
def xsd_kml_DeleteType : XType where
  name := .q .kml (s% "DeleteType")
  base := .none
  particles := [⟨[(⟨.q .kml (s% "AbstractFeatureGroup"), .none⟩)], 0, true⟩]
  attrs := []
  text := false

/-- fastkml/schema/ogckml22.xsd:1640-1645 -/
def xsd_kml_ChangeType : XType where
  name := .q .kml (s% "ChangeType")
  base := .none
  particles := [⟨[(⟨.q .kml (s% "AbstractObjectGroup"), .none⟩)], 0, true⟩]
  attrs := []
  text := false

/-- fastkml/schema/kml22gx.xsd:121-125 -/
def xsd_gx_AbstractTourPrimitiveType : XType where
  name := .q .gx (s% "AbstractTourPrimitiveType")
  base := (.some (.q .kml (s% "AbstractObjectType")))
  particles := []
  attrs := []
  text := false

/-- fastkml/schema/kml22gx.xsd:129-139 -/
def xsd_gx_AnimatedUpdateType : XType where
  name := .q .gx (s% "AnimatedUpdateType")
  base := (.some (.q .gx (s% "AbstractTourPrimitiveType")))
  particles := [⟨[(⟨.q .gx (s% "duration"), .none⟩)], 0, false⟩,
    ⟨[(⟨.q .kml (s% "Update"), .none⟩)], 0, false⟩,
    ⟨[(⟨.q .gx (s% "delayedStart"), .none⟩)], 0, false⟩]
  attrs := []
  text := false

/-- fastkml/schema/kml22gx.xsd:143-153 -/
def xsd_gx_FlyToType : XType where
  name := .q .gx (s% "FlyToType")
  base := (.some (.q .gx (s% "AbstractTourPrimitiveType")))
  particles := [⟨[(⟨.q .gx (s% "duration"), .none⟩)], 0, false⟩,
    ⟨[(⟨.q .gx (s% "flyToMode"), .none⟩)], 0, false⟩,
    ⟨[(⟨.q .kml (s% "AbstractViewGroup"), .none⟩)], 0, false⟩]
  attrs := []
  text := false

/-- fastkml/schema/kml22gx.xsd:157-166 -/
def xsd_gx_PlaylistType : XType where
  name := .q .gx (s% "PlaylistType")
  base := (.some (.q .kml (s% "AbstractObjectType")))
  particles := [⟨[(⟨.q .gx (s% "AbstractTourPrimitiveGroup"), .none⟩)], 0, true⟩]
  attrs := []
  text := false

/-- fastkml/schema/kml22gx.xsd:170-179 -/
def xsd_gx_SoundCueType : XType where
  name := .q .gx (s% "SoundCueType")
  base := (.some (.q .gx (s% "AbstractTourPrimitiveType")))
  particles := [⟨[(⟨.q .kml (s% "href"), .none⟩)], 0, false⟩,
    ⟨[(⟨.q .gx (s% "delayedStart"), .none⟩)], 0, false⟩]
  attrs := []
  text := false

/-- fastkml/schema/kml22gx.xsd:183-191 -/
def xsd_gx_TourType : XType where
  name := .q .gx (s% "TourType")
  base := (.some (.q .kml (s% "AbstractFeatureType")))
  particles := [⟨[(⟨.q .gx (s% "Playlist"), .none⟩)], 0, false⟩]
  attrs := []
  text := false

/-- fastkml/schema/kml22gx.xsd:202-210 -/
def xsd_gx_TourControlType : XType where
  name := .q .gx (s% "TourControlType")
  base := (.some (.q .gx (s% "AbstractTourPrimitiveType")))
  particles := [⟨[(⟨.q .gx (s% "playMode"), .none⟩)], 0, false⟩]
  attrs := []
  text := false

/-- fastkml/schema/kml22gx.xsd:214-222 -/
def xsd_gx_WaitType : XType where
  name := .q .gx (s% "WaitType")
  base := (.some (.q .gx (s% "AbstractTourPrimitiveType")))
  particles := [⟨[(⟨.q .gx (s% "duration"), .none⟩)], 0, false⟩]
  attrs := []
  text := false

/-- fastkml/schema/kml22gx.xsd:226-234 -/
def xsd_gx_LatLonQuadType : XType where
  name := .q .gx (s% "LatLonQuadType")
  base := (.some (.q .kml (s% "AbstractObjectType")))
  particles := [⟨[(⟨.q .kml (s% "coordinates"), .none⟩)], 0, false⟩]
  attrs := []
  text := false

/-- fastkml/schema/kml22gx.xsd:239-256 -/
def xsd_gx_TrackType : XType where
  name := .q .gx (s% "TrackType")
  base := (.some (.q .kml (s% "AbstractGeometryType")))
  particles := [⟨[(⟨.q .kml (s% "extrude"), .none⟩)], 0, false⟩,
    ⟨[(⟨.q .kml (s% "tessellate"), .none⟩)], 0, false⟩,
    ⟨[(⟨.q .kml (s% "altitudeModeGroup"), .none⟩)], 0, false⟩,
    ⟨[(⟨.q .kml (s% "when"), .none⟩)], 0, true⟩,
    ⟨[(⟨.q .gx (s% "coord"), .none⟩)], 0, true⟩,
    ⟨[(⟨.q .gx (s% "angles"), .none⟩)], 0, true⟩,
    ⟨[(⟨.q .kml (s% "Model"), .none⟩)], 0, false⟩,
    ⟨[(⟨.q .kml (s% "ExtendedData"), .none⟩)], 0, false⟩,
    ⟨[(⟨.q .gx (s% "AbstractTrackSimpleExtensionGroup"), .none⟩)], 0, true⟩]
  attrs := []
  text := false

/-- fastkml/schema/kml22gx.xsd:261-271 -/
def xsd_gx_MultiTrackType : XType where
  name := .q .gx (s% "MultiTrackType")
  base := (.some (.q .kml (s% "AbstractGeometryType")))
  particles := [⟨[(⟨.q .kml (s% "altitudeModeGroup"), .none⟩)], 0, false⟩,
    ⟨[(⟨.q .gx (s% "interpolate"), .none⟩)], 0, false⟩,
    ⟨[(⟨.q .gx (s% "Track"), .none⟩)], 0, true⟩]
  attrs := []
  text := false

/-- fastkml/schema/kml22gx.xsd:276-284 -/
def xsd_gx_SimpleArrayFieldType : XType where
  name := .q .gx (s% "SimpleArrayFieldType")
  base := .none
  particles := [⟨[(⟨.q .kml (s% "displayName"), .none⟩)], 0, false⟩,
    ⟨[(⟨.q .gx (s% "SimpleArrayFieldExtension"), .none⟩)], 0, true⟩]
  attrs := [⟨(s% "type"), (.some (.q .xs (s% "string"))), false, .none⟩,
    ⟨(s% "name"), (.some (.q .xs (s% "string"))), false, .none⟩]
  text := false

/-- fastkml/schema/kml22gx.xsd:290-301 -/
def xsd_gx_SimpleArrayDataType : XType where
  name := .q .gx (s% "SimpleArrayDataType")
  base := (.some (.q .kml (s% "AbstractObjectType")))
  particles := [⟨[(⟨.q .gx (s% "value"), .none⟩)], 0, true⟩,
    ⟨[(⟨.q .gx (s% "SimpleArrayDataExtension"), .none⟩)], 0, true⟩]
  attrs := [⟨(s% "name"), (.some (.q .xs (s% "string"))), false, .none⟩]
  text := false

/-- fastkml/schema/kml22gx.xsd:308-316 -/
def xsd_gx_ViewerOptionsType : XType where
  name := .q .gx (s% "ViewerOptionsType")
  base := (.some (.q .kml (s% "AbstractObjectType")))
  particles := [⟨[(⟨.q .gx (s% "option"), .none⟩)], 1, true⟩]
  attrs := []
  text := false

/-- fastkml/schema/kml22gx.xsd:320-327 -/
def xsd_gx_optionType : XType where
  name := .q .gx (s% "optionType")
  base := .none
  particles := []
  attrs := [⟨(s% "name"), (.some (.q .xs (s% "string"))), false, .none⟩,
    ⟨(s% "enabled"), (.some (.q .xs (s% "boolean"))), false, .none⟩]
  text := false

/-- fastkml/schema/atom-author-link.xsd:15-21 -/
def xsd_atom_atomPersonConstruct : XType where
  name := .q .atom (s% "atomPersonConstruct")
  base := .none
  particles := [⟨[(⟨.q .atom (s% "name"), .none⟩), (⟨.q .atom (s% "uri"), .none⟩), (⟨.q .atom (s% "email"), .none⟩)], 0, true⟩]
  attrs := []
  text := false

/-- fastkml/schema/atom-author-link.xsd:31-43 -/
def xsd_atom_link : XType where
  name := .q .atom (s% "link")
  base := .none
  particles := []
  attrs := [⟨(s% "href"), .none, true, .none⟩,
    ⟨(s% "rel"), .none, false, .none⟩,
    ⟨(s% "type"), (.some (.q .atom (s% "atomMediaType"))), false, .none⟩,
    ⟨(s% "hreflang"), (.some (.q .atom (s% "atomLanguageTag"))), false, .none⟩,
    ⟨(s% "title"), .none, false, .none⟩,
    ⟨(s% "length"), .none, false, .none⟩]
  text := false

/-- The complex types. -/
def xsdTypes : List XType := [xsd_kml_vec2Type,
  xsd_kml_AbstractObjectType,
  xsd_kml_AbstractFeatureType,
  xsd_kml_SnippetType,
  xsd_kml_AbstractViewType,
  xsd_kml_LookAtType,
  xsd_kml_CameraType,
  xsd_kml_MetadataType,
  xsd_kml_ExtendedDataType,
  xsd_kml_SchemaDataType,
  xsd_kml_SimpleDataType,
  xsd_kml_DataType,
  xsd_kml_AbstractContainerType,
  xsd_kml_AbstractGeometryType,
  xsd_kml_AbstractOverlayType,
  xsd_kml_AbstractStyleSelectorType,
  xsd_kml_AbstractTimePrimitiveType,
  xsd_kml_KmlType,
  xsd_kml_NetworkLinkControlType,
  xsd_kml_DocumentType,
  xsd_kml_SchemaType,
  xsd_kml_SimpleFieldType,
  xsd_kml_FolderType,
  xsd_kml_PlacemarkType,
  xsd_kml_NetworkLinkType,
  xsd_kml_RegionType,
  xsd_kml_LatLonAltBoxType,
  xsd_kml_LodType,
  xsd_kml_LinkType,
  xsd_kml_MultiGeometryType,
  xsd_kml_PointType,
  xsd_kml_LineStringType,
  xsd_kml_LinearRingType,
  xsd_kml_PolygonType,
  xsd_kml_BoundaryType,
  xsd_kml_ModelType,
  xsd_kml_LocationType,
  xsd_kml_OrientationType,
  xsd_kml_ScaleType,
  xsd_kml_ResourceMapType,
  xsd_kml_AliasType,
  xsd_kml_GroundOverlayType,
  xsd_kml_AbstractLatLonBoxType,
  xsd_kml_LatLonBoxType,
  xsd_kml_ScreenOverlayType,
  xsd_kml_PhotoOverlayType,
  xsd_kml_ViewVolumeType,
  xsd_kml_ImagePyramidType,
  xsd_kml_StyleType,
  xsd_kml_StyleMapType,
  xsd_kml_PairType,
  xsd_kml_AbstractSubStyleType,
  xsd_kml_AbstractColorStyleType,
  xsd_kml_IconStyleType,
  xsd_kml_BasicLinkType,
  xsd_kml_LabelStyleType,
  xsd_kml_LineStyleType,
  xsd_kml_PolyStyleType,
  xsd_kml_BalloonStyleType,
  xsd_kml_ListStyleType,
  xsd_kml_ItemIconType,
  xsd_kml_TimeStampType,
  xsd_kml_TimeSpanType,
  xsd_kml_UpdateType,
  xsd_kml_CreateType,
  xsd_kml_DeleteType,
  xsd_kml_ChangeType,
  xsd_gx_AbstractTourPrimitiveType,
  xsd_gx_AnimatedUpdateType,
  xsd_gx_FlyToType,
  xsd_gx_PlaylistType,
  xsd_gx_SoundCueType,
  xsd_gx_TourType,
  xsd_gx_TourControlType,
  xsd_gx_WaitType,
  xsd_gx_LatLonQuadType,
  xsd_gx_TrackType,
  xsd_gx_MultiTrackType,
  xsd_gx_SimpleArrayFieldType,
  xsd_gx_SimpleArrayDataType,
  xsd_gx_ViewerOptionsType,
  xsd_gx_optionType,
  xsd_atom_atomPersonConstruct,
  xsd_atom_link]

/-- The enumerations. -/
def xsdEnums : List XEnum := [
  -- fastkml/schema/ogckml22.xsd:67-73
  ⟨.q .kml (s% "altitudeModeEnumType"), [(s% "clampToGround"), (s% "relativeToGround"), (s% "absolute")]⟩,
  -- fastkml/schema/ogckml22.xsd:95-100
  ⟨.q .kml (s% "colorModeEnumType"), [(s% "normal"), (s% "random")]⟩,
  -- fastkml/schema/ogckml22.xsd:106-111
  ⟨.q .kml (s% "displayModeEnumType"), [(s% "default"), (s% "hide")]⟩,
  -- fastkml/schema/ogckml22.xsd:113-118
  ⟨.q .kml (s% "gridOriginEnumType"), [(s% "lowerLeft"), (s% "upperLeft")]⟩,
  -- fastkml/schema/ogckml22.xsd:123-132
  ⟨.q .kml (s% "itemIconStateEnumType"), [(s% "open"), (s% "closed"), (s% "error"), (s% "fetching0"), (s% "fetching1"), (s% "fetching2")]⟩,
  -- fastkml/schema/ogckml22.xsd:134-141
  ⟨.q .kml (s% "listItemTypeEnumType"), [(s% "radioFolder"), (s% "check"), (s% "checkHideChildren"), (s% "checkOffOnly")]⟩,
  -- fastkml/schema/ogckml22.xsd:143-149
  ⟨.q .kml (s% "refreshModeEnumType"), [(s% "onChange"), (s% "onInterval"), (s% "onExpire")]⟩,
  -- fastkml/schema/ogckml22.xsd:151-158
  ⟨.q .kml (s% "viewRefreshModeEnumType"), [(s% "never"), (s% "onRequest"), (s% "onStop"), (s% "onRegion")]⟩,
  -- fastkml/schema/ogckml22.xsd:160-166
  ⟨.q .kml (s% "shapeEnumType"), [(s% "rectangle"), (s% "cylinder"), (s% "sphere")]⟩,
  -- fastkml/schema/ogckml22.xsd:168-173
  ⟨.q .kml (s% "styleStateEnumType"), [(s% "normal"), (s% "highlight")]⟩,
  -- fastkml/schema/ogckml22.xsd:175-181
  ⟨.q .kml (s% "unitsEnumType"), [(s% "fraction"), (s% "pixels"), (s% "insetPixels")]⟩,
  -- fastkml/schema/kml22gx.xsd:33-38
  ⟨.q .gx (s% "altitudeModeEnumType"), [(s% "clampToSeaFloor"), (s% "relativeToSeaFloor")]⟩,
  -- fastkml/schema/kml22gx.xsd:40-45
  ⟨.q .gx (s% "flyToModeEnumType"), [(s% "bounce"), (s% "smooth")]⟩,
  -- fastkml/schema/kml22gx.xsd:55-59
  ⟨.q .gx (s% "playModeEnumType"), [(s% "pause")]⟩]

end Verif
