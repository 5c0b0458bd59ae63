{"id": "C01", "title": "Write/read round trip", "statement": "For every KML object tree whose attribute values have the documented types and are in canonical form (trimmed non-empty text, children that are not 'empty', list children grouped by class), whose times can be read back (C20), whose gx:Track rows are complete and whose objects are in namespaces the reader looks in, writing it with etree_element()/to_string() and reading the result back with the same class gives an object equal to the original in every attribute of every nested object, in strict and in lenient mode.", "quantifier": "every class of the library, every object tree of any depth and width, every attribute value of the right type, every namespace mapping, strict and lenient reading", "why_tests_cant": "the object trees are unbounded in depth and width and there are about 60 classes with inherited attribute lists; tests sample a handful of trees", "anchors": ["fastkml/base.py:_XMLObject.etree_element", "fastkml/base.py:_XMLObject.class_from_element", "fastkml/base.py:_XMLObject._get_kwargs", "fastkml/registry.py:Registry.get", "fastkml/helpers.py"]}
{"id": "C02", "title": "What a write/read cycle does to an arbitrary object", "statement": "For every object tree with attribute values of the documented types (canonical or not), reading back what was written yields exactly this: text is trimmed (blank text becomes None), children that are falsy are gone, list children are regrouped by class, verbosity rules are applied, coordinates are rounded to the precision, and nothing else changes. This needs times that can be read back (C20), gx:Track rows that all have a position and an angle and of which the first ones have times (those without a time, if any, are the last), and namespaces the reader looks in; without these it is false: angles and times move to other rows, a track without any time loses its rows, list members in a foreign namespace are lost.", "quantifier": "every typed object tree, every verbosity, every precision, both reading modes", "why_tests_cant": "the interaction of trimming, truthiness, regrouping and defaults over nested objects is a function on an infinite domain", "anchors": ["fastkml/base.py", "fastkml/helpers.py", "fastkml/styles.py", "fastkml/features.py"]}
{"id": "C03", "title": "Terse output drops exactly the defaults", "statement": "With verbosity=terse a scalar attribute is omitted iff it is None or equals its declared default; every other attribute is written exactly as with verbosity=normal.", "quantifier": "every class, every registered attribute with a default, every value", "why_tests_cant": "must hold for all values, not just the sampled default and one non-default", "anchors": ["fastkml/helpers.py:get_value", "fastkml/helpers.py:bool_subelement", "fastkml/helpers.py:float_subelement", "fastkml/helpers.py:enum_subelement"]}
{"id": "C04", "title": "Verbose output makes defaults explicit", "statement": "With verbosity=verbose an unset attribute that has a default is written with that default, a set attribute is written as with verbosity=normal, and reading the verbose output gives the original object with every unset defaulted attribute filled in.", "quantifier": "every class, every object", "why_tests_cant": "same", "anchors": ["fastkml/helpers.py:get_value"]}
{"id": "C05", "title": "Lenient reading is a conservative extension of strict reading", "statement": "Whenever reading with strict=True succeeds, reading the same element with strict=False succeeds with an identical object.", "quantifier": "every XML element of any depth and content, every class, every namespace mapping", "why_tests_cant": "ranges over all XML documents", "anchors": ["fastkml/base.py:_XMLObject.class_from_element", "fastkml/helpers.py:_get_boolean_value", "fastkml/helpers.py:_get_enum_value", "fastkml/helpers.py:handle_error"]}
{"id": "C06", "title": "Lenient reading never raises KMLParseError", "statement": "Reading with strict=False never raises KMLParseError, whatever the document contains.", "quantifier": "every XML element, every class", "why_tests_cant": "ranges over all malformed documents", "anchors": ["fastkml/helpers.py:handle_error", "fastkml/geometry.py:handle_invalid_geometry_error"]}
{"id": "C07", "title": "The only exceptions reading can raise", "statement": "Reading raises only KMLParseError (strict mode, malformed value), KMLSchemaError (Schema without id), ValueError (a non-integer maxLines or length attribute, in either mode) or TypeError (gx:Track rows that cannot be paired, or coordinates of impossible dimension inside a list that is filtered for emptiness). In particular the documented KMLParseError contract is violated by integer attributes.", "quantifier": "every XML element, every class, both modes", "why_tests_cant": "needs a case analysis over every reader on every input", "anchors": ["fastkml/helpers.py:attribute_int_kwarg", "fastkml/helpers.py:datetime_subelement_list_kwarg", "fastkml/gx.py:Track", "fastkml/data.py:Schema"]}
{"id": "C08", "title": "Strict reading never drops a malformed value", "statement": "If strict reading of an element succeeds then every registered scalar sub-element found was convertible and its converted value is the attribute value of the result.", "quantifier": "every XML element, every scalar attribute of every class", "why_tests_cant": "ranges over all documents", "anchors": ["fastkml/helpers.py:subelement_bool_kwarg", "fastkml/helpers.py:subelement_int_kwarg", "fastkml/helpers.py:subelement_float_kwarg", "fastkml/helpers.py:subelement_enum_kwarg", "fastkml/helpers.py:datetime_subelement_kwarg"]}
{"id": "C09", "title": "Reading depends only on registered content", "statement": "The object read from an element depends only on the text, the registered XML attributes and, per registered child name, the ordered list of children of that name. Hence unknown children, unknown attributes, comments and the relative order of differently named children are irrelevant.", "quantifier": "every pair of XML elements that agree on the registered content, every class", "why_tests_cant": "quantifies over pairs of documents", "anchors": ["fastkml/base.py:_XMLObject._get_kwargs", "fastkml/helpers.py:xml_subelement_kwarg", "fastkml/helpers.py:xml_subelement_list_kwarg"]}
{"id": "C10", "title": "First occurrence wins", "statement": "If a single-valued child occurs several times, the first occurrence in document order (in the first namespace that matches) determines the attribute; later occurrences have no effect.", "quantifier": "every element, every single-valued attribute", "why_tests_cant": "ranges over all documents with repeated children", "anchors": ["fastkml/helpers.py:subelement_text_kwarg", "fastkml/helpers.py:xml_subelement_kwarg"]}
{"id": "C11", "title": "List children: complete, ordered within a class, grouped by class", "statement": "Reading a list-valued attribute yields every child element of every registered class exactly once; children of the same class keep document order, and children of different classes are grouped in the registered class order. Document order between different classes is NOT preserved (disagreement with what users expect).", "quantifier": "every element with any number and interleaving of children", "why_tests_cant": "all interleavings", "anchors": ["fastkml/helpers.py:xml_subelement_list_kwarg", "fastkml/containers.py", "fastkml/kml.py"]}
{"id": "C12", "title": "Children are written in registration order, ancestors first", "statement": "The children of a written element appear in the order base-class attributes first, then subclass attributes, each in registration order, regardless of the order in which attributes were assigned; list children keep list order.", "quantifier": "every object", "why_tests_cant": "all objects and all assignment histories", "anchors": ["fastkml/registry.py:Registry.get", "fastkml/base.py:_XMLObject.etree_element"]}
{"id": "C13", "title": "Registry.get collects the ancestors' registrations", "statement": "After any sequence of register calls, get(cls) is the concatenation, from the root ancestor to cls, of the items registered for each class in registration order; registering an item for a class changes get exactly for that class and its subclasses, by inserting it at the end of that class's block.", "quantifier": "every sequence of register calls, every class hierarchy", "why_tests_cant": "all registration histories", "anchors": ["fastkml/registry.py:Registry.register", "fastkml/registry.py:Registry.get"]}
{"id": "C14", "title": "Namespace fallback on reading", "statement": "A scalar or single child is looked up in the namespaces of its registration in order and taken from the first namespace that yields a value; so un-namespaced documents are read like namespaced ones. For list-valued children the fallback never happens: only the first namespace is ever searched (disagreement: un-namespaced list children are lost).", "quantifier": "every element, every registered attribute, every namespace mapping", "why_tests_cant": "all documents and namespace mappings", "anchors": ["fastkml/base.py:_XMLObject._get_kwargs", "fastkml/helpers.py:xml_subelement_list_kwarg"]}
{"id": "C15", "title": "A child is written iff it is truthy", "statement": "A nested object is written iff bool(child) is True; a list child iff bool(item) is True; nothing else affects it. Consequently to_string -> from_string -> to_string is stable after one cycle except for objects whose truthiness depends on dropped grandchildren (StyleMap with only empty Pairs).", "quantifier": "every object tree", "why_tests_cant": "all trees", "anchors": ["fastkml/helpers.py:xml_subelement", "fastkml/helpers.py:xml_subelement_list"]}
{"id": "C16", "title": "precision affects only coordinates", "statement": "The precision argument changes only the text of coordinates, gx:coord and gx:angles elements; tags, attributes, number and order of elements, all other text, and the number of tuples and components stay the same.", "quantifier": "every object tree, every precision", "why_tests_cant": "all trees and precisions", "anchors": ["fastkml/geometry.py:coordinates_subelement", "fastkml/helpers.py:coords_subelement_list", "fastkml/helpers.py:float_subelement"]}
{"id": "C17", "title": "Rounding error bound of precision", "statement": "A coordinate written with precision p denotes a number within half a unit of the p-th decimal of the exact value, has exactly p decimals, and writing an already rounded value again is the identity.", "quantifier": "every coordinate value and every precision", "why_tests_cant": "infinitely many values", "anchors": ["fastkml/geometry.py:coordinates_subelement"]}
{"id": "C18", "title": "Boolean text", "statement": "Strict reading accepts exactly '1','true','0','false' (after trimming) with the expected meaning; lenient reading additionally ignores case and accepts numbers; written booleans are '1'/'0' and read back unchanged.", "quantifier": "every text", "why_tests_cant": "all strings", "anchors": ["fastkml/helpers.py:_get_boolean_value", "fastkml/helpers.py:bool_subelement"]}
{"id": "C19", "title": "Enumerations", "statement": "Strict reading accepts exactly the schema spellings; lenient reading accepts exactly the spellings that agree up to case, and always yields the unique member with that spelling; written members read back unchanged; for every enum the schema spellings are pairwise different even ignoring case.", "quantifier": "every text, every enum class", "why_tests_cant": "all strings", "anchors": ["fastkml/enums.py:RelaxedEnum._missing_", "fastkml/helpers.py:_get_enum_value", "fastkml/helpers.py:enum_subelement"]}
{"id": "C20", "title": "KmlDateTime round trip", "statement": "KmlDateTime.parse(str(k)) == k for every KmlDateTime of every resolution (year >= 1000 for gYear and gYearMonth; dateTime values carrying a UTC offset). It fails for naive datetimes, which come back as UTC, and for years below 1000 with gYear/gYearMonth resolution.", "quantifier": "every date, every time of day down to microseconds, every UTC offset, every resolution", "why_tests_cant": "about 10^17 values per resolution", "anchors": ["fastkml/times.py:KmlDateTime.__str__", "fastkml/times.py:KmlDateTime.parse"]}
{"id": "C21", "title": "KmlDateTime.parse accepts the XSD lexical forms with the right resolution", "statement": "YYYY, YYYY-MM and YYYY-MM-DD are parsed to exactly that date with resolution gYear, gYearMonth and date, invalid months/days raise ValueError, and the set of texts handled as dates (rather than handed to arrow) is exactly the one described by the documented pattern, including sloppy forms such as 2000-, 200001 or 2000--01.", "quantifier": "every text", "why_tests_cant": "all strings", "anchors": ["fastkml/times.py:year_month_day", "fastkml/times.py:KmlDateTime.parse"]}
{"id": "C22", "title": "KmlDateTime normalisation", "statement": "The stored date is truncated to the resolution (gYear: January 1st, gYearMonth: 1st of month, date: no time part), a dateTime resolution with a plain date is downgraded to date, normalisation is idempotent, and equality is exactly equality of normalised value and resolution.", "quantifier": "every date/datetime and every requested resolution", "why_tests_cant": "all combinations", "anchors": ["fastkml/times.py:KmlDateTime.__init__", "fastkml/times.py:adjust_date_to_resolution", "fastkml/times.py:KmlDateTime.__eq__"]}
{"id": "C23", "title": "Text normalisation", "statement": "Text given to constructors is trimmed of Unicode whitespace at both ends and blank text becomes None; the operation is idempotent and never alters inner characters.", "quantifier": "every text", "why_tests_cant": "all strings", "anchors": ["fastkml/helpers.py:clean_string"]}
{"id": "C24", "title": "Coordinates text round trip", "statement": "Every non-empty list of 2- or 3-component coordinates written as <coordinates> text reads back as exactly the same list (precision None).", "quantifier": "every coordinate list", "why_tests_cant": "all lists", "anchors": ["fastkml/geometry.py:coordinates_subelement", "fastkml/geometry.py:subelement_coordinates_kwarg"]}
{"id": "C25", "title": "Coordinates parsing tolerates spacing", "statement": "Reading <coordinates> is invariant under the amount and kind of whitespace between tuples, at the ends, and of blanks after commas; the number of tuples read is the number of whitespace separated groups.", "quantifier": "every coordinate text and every such respacing", "why_tests_cant": "all strings", "anchors": ["fastkml/geometry.py:subelement_coordinates_kwarg"]}
{"id": "C26", "title": "Coordinates dimension check on writing", "statement": "Writing coordinates raises KMLWriteError iff the first tuple does not have 2 or 3 components; the components of later tuples are not checked.", "quantifier": "every coordinate list", "why_tests_cant": "all lists", "anchors": ["fastkml/geometry.py:coordinates_subelement"]}
{"id": "C27", "title": "Geometry conversion round trip", "statement": "create_kml_geometry(g).geometry returns a geometry equal to g for every non-empty Point, LineString, LinearRing, Polygon, MultiPoint, MultiLineString, MultiPolygon; for GeometryCollections it returns the collection with homogeneous collections of points/lines/polygons replaced by the corresponding Multi type.", "quantifier": "every geometry of every type and nesting depth", "why_tests_cant": "all geometries", "anchors": ["fastkml/geometry.py:create_kml_geometry", "fastkml/geometry.py:create_multigeometry", "fastkml/geometry.py:MultiGeometry", "fastkml/geometry.py:Polygon"]}
{"id": "C28", "title": "Geometry classification", "statement": "create_multigeometry returns None for no geometries, MultiPoint/MultiLineString/MultiPolygon iff all members are Points/LineStrings/Polygons, and a GeometryCollection of all members otherwise.", "quantifier": "every list of geometries", "why_tests_cant": "all lists", "anchors": ["fastkml/geometry.py:create_multigeometry"]}
{"id": "C29", "title": "Geometry arguments are mutually exclusive", "statement": "Point, LineString, LinearRing, boundaries, Polygon and MultiGeometry raise GeometryError iff both a pygeoif geometry and the corresponding KML argument are given (not None); Placemark raises ValueError iff both are truthy; Track raises ValueError iff track_items and (whens or coords) are given.", "quantifier": "every combination of arguments", "why_tests_cant": "all argument values", "anchors": ["fastkml/geometry.py", "fastkml/features.py:Placemark", "fastkml/gx.py:Track"]}
{"id": "C30", "title": "Rings are closed", "statement": "The geometry of a LinearRing or of a Polygon boundary is a closed ring (first == last point) whatever coordinates were read or given.", "quantifier": "every coordinate list", "why_tests_cant": "all lists", "anchors": ["fastkml/geometry.py:LinearRing.geometry", "fastkml/geometry.py:Polygon.geometry"]}
{"id": "C31", "title": "Polygon holes", "statement": "Polygon.geometry has exactly one hole per inner boundary that has a geometry, in order, and None geometry iff the outer boundary is empty.", "quantifier": "every polygon object", "why_tests_cant": "all", "anchors": ["fastkml/geometry.py:Polygon.geometry"]}
{"id": "C32", "title": "gx:Track pairing", "statement": "A Track built from equally long whens, coords and angles exposes exactly these three sequences again, its k-th item carries the k-th when, coord and angle, and writing and reading it preserves them. With fewer angles the missing ones are (0,0,0); with fewer whens or coords the track holds a garbage when or construction fails.", "quantifier": "every track length, every value", "why_tests_cant": "all lists", "anchors": ["fastkml/gx.py:Track"]}
{"id": "C33", "title": "Lenient reading can mis-pair track rows", "statement": "Intended: in lenient mode every surviving position of a gx:Track keeps its own time. False: a malformed <when> is dropped from the list of times before pairing, so all later positions get the wrong time. With as many readable positions as <when> elements the pairing is right exactly if no readable <when> comes after a malformed one; in strict mode it is always right.", "quantifier": "every gx:Track element", "why_tests_cant": "needs an argument over all documents; tests do not cover it", "anchors": ["fastkml/gx.py:Track", "fastkml/helpers.py:datetime_subelement_list_kwarg"]}
{"id": "C34", "title": "MultiTrack keeps exactly the non-empty tracks", "statement": "MultiTrack.tracks contains exactly the given tracks that have items, in order; its geometry has one line per track with non-empty geometry.", "quantifier": "every list of tracks", "why_tests_cant": "all lists", "anchors": ["fastkml/gx.py:MultiTrack", "fastkml/gx.py:tracks_to_geometry"]}
{"id": "C35", "title": "find_all is complete, sound and ordered", "statement": "find_all(obj, of_type, **attrs) yields exactly the objects reachable from obj through public attributes and list elements that have the type and all given attribute values, each once per occurrence, parents before their descendants; find returns the first or None.", "quantifier": "every object tree and every query", "why_tests_cant": "all trees and queries", "anchors": ["fastkml/utils.py:find_all", "fastkml/utils.py:find", "fastkml/utils.py:get_all_attrs"]}
{"id": "C36", "title": "get_style_by_url resolves the fragment", "statement": "Document.get_style_by_url(url) returns a Style or StyleMap reachable from the document whose id equals the fragment of url, the first in traversal order, and None iff there is none; only the part after '#' matters. ValueError is raised exactly for urls with a network location (after // at the beginning or after the scheme) that is malformed: never for '#id', 'file.kml#id' or ASCII urls without brackets.", "quantifier": "every document, every url", "why_tests_cant": "all documents", "anchors": ["fastkml/containers.py:Document.get_style_by_url"]}
{"id": "C37", "title": "StyleMap.normal and highlight", "statement": "normal/highlight return the style of the first pair with that key and None iff there is no such pair.", "quantifier": "every list of pairs", "why_tests_cant": "all lists", "anchors": ["fastkml/styles.py:StyleMap"]}
{"id": "C38", "title": "Containers keep appended features in order", "statement": "After any sequence of append calls a container's features are the initial ones followed by the appended ones in call order, except that appending the container to itself raises ValueError and changes nothing; KML.append has no such guard, and indirect cycles are not detected.", "quantifier": "every sequence of append calls over any number of containers", "why_tests_cant": "all histories", "anchors": ["fastkml/containers.py:_Container.append", "fastkml/kml.py:KML.append"]}
{"id": "C39", "title": "Equality", "statement": "Object equality is reflexive and symmetric on typed trees, implies equal class and equal attributes for all classes using the default comparison, and for Point compares extrude, altitude_mode, geometry and ids. For LineString, LinearRing and Polygon altitude_mode is ignored, so objects that serialise differently compare equal (disagreement).", "quantifier": "every pair of objects", "why_tests_cant": "all pairs", "anchors": ["fastkml/base.py:_XMLObject.__eq__", "fastkml/geometry.py:Point.__eq__", "fastkml/geometry.py:LineString.__eq__", "fastkml/geometry.py:Polygon.__eq__"]}
{"id": "C40", "title": "Namespace mapping of objects", "statement": "Every object's namespace mapping is the default mapping updated with the user's entries; its own namespace is the explicit ns if given (even empty), else the mapping's entry for the class's default namespace id, else empty; children read from a document get the namespace they were found in and the document's mapping.", "quantifier": "every mapping and ns argument", "why_tests_cant": "all mappings", "anchors": ["fastkml/base.py:_XMLObject.__init__", "fastkml/base.py:_XMLObject.from_string"]}
{"id": "C41", "title": "KML.parse namespace detection", "statement": "KML.parse without ns uses the root element's own namespace for every tag ending in 'kml' and the empty namespace otherwise; with ns it uses ns; the effective mapping sends 'kml' to that namespace when it is non-empty. It does so by writing into the caller's dictionary (disagreement: the argument is mutated).", "quantifier": "every root tag, ns and mapping", "why_tests_cant": "all", "anchors": ["fastkml/kml.py:KML.parse"]}
{"id": "C42", "title": "KML.write target", "statement": "KML.write stores exactly the to_string text: as member doc.kml of a zip iff the path suffix is '.kmz' (case sensitive), else as the file content in UTF-8; nothing is written if serialisation fails.", "quantifier": "every object, every path", "why_tests_cant": "all paths", "anchors": ["fastkml/kml.py:KML.write"]}
{"id": "C43", "title": "Validation decision logic", "statement": "validate raises ValueError iff not exactly one of element and file is given, returns None iff XMLSchema is unavailable, returns True iff the document is valid and re-raises AssertionError iff it is not; KML.parse validates iff validate is truthy or (strict and validate is None).", "quantifier": "every combination of arguments and validator outcomes", "why_tests_cant": "decision table over an external validator", "anchors": ["fastkml/validator.py:validate", "fastkml/kml.py:lxml_parse_and_validate"]}
{"id": "C44", "title": "Written elements are valid for the schemas", "statement": "For every object that is not empty and whose lists of different things are in the schema's order (styles of a Style, data before schema data, a control element before one feature in a KML, a Document without features or without schemata, an IconStyle whose icon has only a target), all parts being in the namespaces of the schemas, the written element is valid for the type the OGC KML 2.2 / gx / atom schemas declare: children in the prescribed order and number, required children and attributes present, only declared names, enumeration, boolean and integer texts of their types. If, besides, the values are in the range of the declared types (angles, 32-bit integers, finite numbers, colours of eight hexadecimal digits, ids that are XML names, mail addresses, zones of at most 14 hours, years from 1000 where only the year or month is given), every text and attribute is a value of its simple type. It fails for a Document with both features and schemata (Schema must come first), for a KML with a NetworkLinkControl after it has been read, for styles in another order, and for verbose output of an IconStyle. Values out of range are written as they are: the year 999 as 999, nan, any text as a colour or id, 91 degrees of latitude.", "quantifier": "every object of every class", "why_tests_cant": "all objects, all subsets of attributes", "anchors": ["fastkml/schema/ogckml22.xsd", "fastkml/schema/kml22gx.xsd", "fastkml/base.py:_XMLObject.etree_element"]}
{"id": "C45", "title": "Element and attribute names are those of the XSD", "statement": "Every child element and XML attribute ever written by a class is declared for that class's element in the OGC/gx/atom schemas, for objects in the namespaces of the schemas, whatever the order of their lists. It fails for a Track row without time (a gx:when element).", "quantifier": "every object of every class", "why_tests_cant": "all objects", "anchors": ["fastkml/schema/ogckml22.xsd", "fastkml/base.py"]}
{"id": "C46", "title": "Omitted defaults mean the same to other readers", "statement": "Every default that terse output omits equals the default the XSD declares for that element or attribute, so omitting it does not change the meaning. It fails for Lod.minLodPixels (256 vs 0), hotSpot x/y (0.5 vs 1.0) and Link/Icon viewFormat (no default in the schema).", "quantifier": "every class, every attribute with default", "why_tests_cant": "compares two whole tables", "anchors": ["fastkml/views.py:Lod", "fastkml/styles.py:HotSpot", "fastkml/schema/ogckml22.xsd"]}
{"id": "C47", "title": "Whitespace and pretty printing are irrelevant", "statement": "Adding or removing whitespace-only text in elements that have children, and whitespace around the text of value elements, does not change what is read (so pretty printed and compact output read the same). It fails for <when> inside gx:Track.", "quantifier": "every document, every whitespace change", "why_tests_cant": "all documents", "anchors": ["fastkml/helpers.py", "fastkml/base.py:_XMLObject.to_string", "fastkml/helpers.py:datetime_subelement_list_kwarg"]}
{"id": "C48", "title": "Lenient mode isolates errors", "statement": "In lenient mode a malformed scalar is treated exactly as if it were absent: the remaining attributes are those of the same document without that child.", "quantifier": "every document, every malformed scalar", "why_tests_cant": "all documents", "anchors": ["fastkml/helpers.py:handle_error"]}
{"id": "C49", "title": "Identifiers", "statement": "id and target_id are never None, are written iff non-empty, verbatim, and read back verbatim; a Schema always has a non-empty id argument, else KMLSchemaError is raised (but a blank id is accepted and stored as None).", "quantifier": "every id text", "why_tests_cant": "all strings", "anchors": ["fastkml/kml_base.py:_BaseObject", "fastkml/data.py:Schema"]}
{"id": "C50", "title": "IconStyle icon precedence", "statement": "IconStyle keeps icon when both icon and icon_href are given, builds an Icon with that href when only icon_href is given, and icon_href returns the href of the icon in use or None.", "quantifier": "every combination", "why_tests_cant": "all values", "anchors": ["fastkml/styles.py:IconStyle"]}
{"id": "C51", "title": "Time accessors", "statement": "time_stamp is the stamp's time iff times is a TimeStamp, begin/end are the span's ends iff times is a TimeSpan, otherwise None.", "quantifier": "every feature and view", "why_tests_cant": "all", "anchors": ["fastkml/mixins.py:TimeMixin"]}
{"id": "C52", "title": "Location and Model geometry", "statement": "Location.geometry is the point (longitude, latitude[, altitude]) iff both longitude and latitude are set, else None; Model.geometry is its location's geometry.", "quantifier": "every value combination", "why_tests_cant": "all values", "anchors": ["fastkml/model.py:Location", "fastkml/model.py:Model"]}
{"id": "C53", "title": "Emptiness predicates", "statement": "bool(obj) is exactly the documented emptiness condition of its class (e.g. a Link has an href, a LatLonBox has all four sides, a Style has a truthy sub-style, a Region has a truthy box) for all attribute values.", "quantifier": "every class with a __bool__, every attribute value", "why_tests_cant": "all values incl. 0 and False which must count as set", "anchors": ["fastkml/styles.py", "fastkml/overlays.py", "fastkml/views.py", "fastkml/model.py", "fastkml/data.py"]}
{"id": "C54", "title": "Serialisation of typed objects succeeds", "statement": "Writing never fails for objects whose attributes have the documented types, unless a coordinates list starts with a tuple of the wrong dimension or a line mixes impossible dimensions.", "quantifier": "every typed object tree", "why_tests_cant": "all trees", "anchors": ["fastkml/base.py:_XMLObject.etree_element", "fastkml/geometry.py:coordinates_subelement"]}
{"id": "C55", "title": "ExtendedData keeps exactly the non-empty entries", "statement": "ExtendedData.elements contains exactly the given truthy Data/SchemaData in order, and is truthy iff at least one survived.", "quantifier": "every list", "why_tests_cant": "all lists", "anchors": ["fastkml/data.py:ExtendedData"]}
{"id": "C56", "title": "Enumerations are those of the schemas", "statement": "The values an attribute with an enumeration (altitude mode, refresh mode, units, ...) can have are exactly the values the schemas list for the element or XML attribute it is written to: nothing allowed by the schema is unreadable, nothing writable is invalid.", "quantifier": "every class, every enumerated attribute, every text", "why_tests_cant": "compares all tables of two vocabularies, both ways", "anchors": ["fastkml/enums.py", "fastkml/schema/ogckml22.xsd", "fastkml/schema/kml22gx.xsd"]}
{"id": "C57", "title": "eval(repr(obj)) == obj", "statement": "Evaluating the text that repr prints for an object constructs, without error, an object that equals the original in both directions, has the same geometry and truth value and the same repr; where no line, ring or polygon is involved it is the same in every attribute. If the object was made with further keyword arguments that its class does not know, those that are not None are attributes of the result as well.", "quantifier": "every object made by the public constructors or read from a document, of any class and nesting, without NaN and without schemas with blank ids", "why_tests_cant": "must hold for every class, attribute value and nesting; round-trip tests sample a few strategies", "anchors": ["fastkml/base.py:_XMLObject.__repr__", "fastkml/geometry.py:LineString.__repr__", "fastkml/geometry.py:Polygon.__repr__", "fastkml/features.py:Placemark.__repr__", "fastkml/times.py:KmlDateTime.__repr__"]}
{"id": "C58", "title": "Documents are read and written alike in every namespace", "statement": "KML.parse reads a document in any KML namespace (2.0, 2.1, 2.2, Google's own) alike: replacing the namespaces of all elements and of the arguments, different ones by different ones, gives the same object with the namespaces replaced, or the same exception; writing such an object gives the same elements with the namespaces replaced; geometry and truth value do not depend on the namespaces.", "quantifier": "every document, class, renaming of namespaces, strict flag; every object, precision and verbosity", "why_tests_cant": "quantifies over all documents and all namespaces; tests use a handful of files in one or two namespaces", "anchors": ["fastkml/kml.py:KML.parse", "fastkml/base.py:_XMLObject.class_from_element", "fastkml/base.py:_XMLObject._get_kwargs", "fastkml/base.py:_XMLObject.etree_element", "fastkml/helpers.py"]}
{"id": "C59", "title": "A document without namespace is saved in the KML namespace", "statement": "A KML object without namespace is written with xmlns on the root element: an XML parser gets exactly what is written for the same objects in the KML 2.2 namespace, and KML.parse reads it as the same document in that namespace.", "quantifier": "every KML object with an empty namespace and any content (objects without namespace, or in namespaces of their own), every precision and verbosity", "why_tests_cant": "must hold for every nesting of objects with and without namespaces", "anchors": ["fastkml/kml.py:KML.etree_element", "fastkml/kml.py:KML.parse", "fastkml/helpers.py:get_ns"]}
{"id": "C60", "title": "Open, save, open", "statement": "Opening a document, saving it and opening what was saved gives the same objects again, whatever the document: all attributes, all classes, all nesting. Only empty objects are lost (without empty objects the result is identical); saving verbosely adds only defaults, saving tersely omits only defaults; the root keeps its namespace.", "quantifier": "every document that can be opened, strictly or leniently, in any KML namespace, with elements of classes of fastkml in their standard namespaces; without years below 1000, coordinates of other than two or three numbers, schemas with a blank id", "why_tests_cant": "quantifies over all documents, not over objects somebody constructed; needs that whatever the reader accepts is in the domain of the writer", "anchors": ["fastkml/kml.py:KML.parse", "fastkml/base.py:_XMLObject.from_string", "fastkml/base.py:_XMLObject.etree_element", "fastkml/helpers.py"]}
{"id": "C61", "title": "Reading loses nothing that is supported", "statement": "Strict reading of a schema-valid element keeps all of its content except a fixed list of unsupported elements and XML attributes: every child element and XML attribute is held by the attribute that the documentation's naming rule gives it, with the value its schema type gives it (text, number, boolean, time, enumeration), or as the object read from it, at all depths; what is on the list of unsupported names has no influence at all.", "quantifier": "every schema-valid element of every class, at all depths and sizes; the unsupported names are listed class by class; a second name, uri or email of an author and the Style of a Pair that also has a styleUrl are lost", "why_tests_cant": "compares two whole vocabularies, the schemas and the registrations, for all documents; tests read the few elements somebody thought of", "anchors": ["fastkml/base.py:_XMLObject._get_kwargs", "fastkml/registry.py:Registry", "fastkml/helpers.py", "fastkml/schema/ogckml22.xsd", "fastkml/schema/kml22gx.xsd", "fastkml/schema/atom-author-link.xsd"]}
{"id": "C62", "title": "Registering a new attribute extends the library and changes nothing else", "statement": "After registry.register(cls, item) with a new attribute name, every document is read as before except for the new attribute: the result without that attribute is the old result, and if reading the attribute cannot fail then reading fails exactly where it failed before. The attribute of objects of the class and its subclasses is the value the document gives it, or missing. Objects that do not use it are written as before, and objects that do are written and read back unchanged, like objects with an attribute that the library declares. The same holds for the new class of the documentation.", "quantifier": "every library with any set of classes and registrations meeting the stated conditions, every class whose constructors accept further keyword arguments and every new item, and every document and object tree; shown to fail for overlays, for KML and for text elements in another namespace than the class", "why_tests_cant": "the registrations of users are not known to the tests, and non-interference is about all other documents", "anchors": ["fastkml/registry.py:Registry.register", "fastkml/registry.py:Registry.get", "fastkml/base.py:_XMLObject.__init__", "fastkml/base.py:_XMLObject._get_kwargs", "fastkml/overlays.py:_Overlay.__init__", "docs/working_with_kml.rst", "examples/transform_cascading_style.py"]}
{"id": "C63", "title": "Valid documents are accepted", "statement": "Strict reading of a schema-valid element succeeds if its times and coordinates can be read (numbers, integers and booleans can, in every notation the schemas allow, with whitespace around them) and the rows of its tracks match; the result keeps all supported content and can be written again. In particular KML.parse accepts such documents. Nothing else about a valid document can make reading fail, except a Schema without id, a fraction in a Lod, and the type of a SimpleField and the length of an atom:link, for which the library is stricter than the schemas.", "quantifier": "every schema-valid element of every class, at all depths and sizes, read with the default or any given namespace; what validity does not settle (numbers, times, coordinates and rows) is stated as a condition on the texts", "why_tests_cant": "compares the schemas with all readers and constructors for all valid documents; the rejected documents were found by the attempt to prove it without conditions", "anchors": ["fastkml/kml.py:KML.parse", "fastkml/base.py:_XMLObject.class_from_element", "fastkml/helpers.py", "fastkml/gx.py:Track", "fastkml/data.py:Schema", "fastkml/schema/ogckml22.xsd"]}
{"id": "C64", "title": "Objects can be written after any history of changes", "statement": "After any program that constructs objects, reads documents, assigns attributes, appends features, fields and data and changes lists, in any order and with any sharing of objects and lists, and that a type checker accepts, every object can be written unless it is, or contains, an object that contains itself; in that case writing stops with RecursionError whatever the limit. What is written is determined by the current attributes: constructors give what the arguments say, reading gives the object that was read, assignment replaces exactly one attribute and append adds exactly one member at the end.", "quantifier": "every finite program of any length over the API, every store of objects and lists it can lead to, every object in it, every precision and verbosity, every recursion limit from the number of objects on", "why_tests_cant": "unit tests make one object and write it; here the histories, the sharing and the cycles are arbitrary", "anchors": ["fastkml/base.py:_XMLObject.__init__", "fastkml/base.py:_XMLObject.etree_element", "fastkml/containers.py:_Container.append", "fastkml/kml.py:KML.append", "fastkml/data.py:Schema.append", "fastkml/data.py:SchemaData.append_data", "fastkml/geometry.py:Coordinates", "fastkml/gx.py:Track"]}
{"id": "C65", "title": "Changes are local", "statement": "Constructing and reading objects changes no existing object. Assigning to an attribute changes that object and the objects that contain it, and no others. Changing a list changes only the objects that hold the list, and those that contain them. Constructors copy the lists they are given, so that changing such a list later changes no object, and append changes only that object and those that contain it, as long as no list is assigned to an attribute; the one constructor that keeps the list of the caller is Coordinates.", "quantifier": "every reachable store, every step of a program and every object not mentioned by the step; for the last part every program that assigns no list and constructs Coordinates from tuples", "why_tests_cant": "non-interference is about all other objects, and aliasing about all histories", "anchors": ["fastkml/base.py:_XMLObject.__init__", "fastkml/containers.py:_Container.__init__", "fastkml/geometry.py:Coordinates.__init__", "fastkml/data.py", "fastkml/features.py", "fastkml/styles.py"]}
{"id": "C66", "title": "Integers", "statement": "The text of an integer (drawOrder, maxSessionLength, maxLines, ...) is accepted exactly if it is, between white space, an optional sign and decimal digits (of any script) that may be grouped with single underscores, and is read as the number those digits denote. An integer is written as its decimal numeral without leading zeros or a plus sign, and that is read as the same number.", "quantifier": "every text and every integer of any size", "why_tests_cant": "all texts and all integers", "anchors": ["fastkml/helpers.py:subelement_int_kwarg", "fastkml/helpers.py:attribute_int_kwarg", "fastkml/helpers.py:int_subelement", "fastkml/helpers.py:int_attribute"]}
{"id": "C67", "title": "Through text and files", "statement": "With an XML library that reads the elements it writes: every typed object whose texts XML can hold is written by to_string, and from_string reads from the text, however it is indented, the object that the rules of writing allow (C02), and the same object if it is canonical. A document written with KML.write to a file that is not a .kmz is read back by KML.parse as the same document, unless the requested validation rejects it; opening, saving and opening again a file gives the same document up to empty objects; a document without namespace comes back in the namespace of KML 2.2.", "quantifier": "every typed object or document, every indentation, verbosity, precision, strict or lenient reading, every file system and path, every such XML library", "why_tests_cant": "all object trees and all texts, and every XML library that keeps the law", "anchors": ["fastkml/base.py:_BaseObject.to_string", "fastkml/base.py:_XMLObject.from_string", "fastkml/kml.py:KML.write", "fastkml/kml.py:KML.parse"]}
{"id": "C68", "title": "How the verbosity levels relate", "statement": "For every object the terse document is the normal one, and the normal one the verbose one, with some XML attributes, some texts and some elements that hold only a text left out: no feature, geometry or style is lost and nothing is reordered or reworded. A canonical object that was written verbosely and read is, written tersely, the same document as the original written tersely; written verbosely or normally it is the same document as the original written verbosely, unless it has a NetworkLinkControl in it. A canonical object that was written tersely and read is, written tersely or normally, the same document, unless an object in it has become empty.", "quantifier": "every typed object, every precision; every canonical object, every namespace mapping of the reader, strict or lenient reading", "why_tests_cant": "all object trees and all combinations of set and unset attributes and defaults", "anchors": ["fastkml/helpers.py:get_value", "fastkml/base.py:_XMLObject.etree_element", "fastkml/enums.py:Verbosity"]}
{"id": "C69", "title": "Configuration of prefixes", "statement": "After any sequence of set_etree_implementation, register_namespaces and set_default_namespaces, with or without exceptions: the library in use is the one set last; in no XML library do two namespaces share a prefix or does a namespace have two; each call changes at most the table of the library in use. register_namespaces gives each namespace the prefix of its last pair and takes the prefix from any other namespace; at the first refused pair it raises ValueError and the pairs before it remain; with a library without register_namespace nothing happens. After set_default_namespaces, whatever was done before, the library in use has kml, atom and gx for the three namespaces.", "quantifier": "every sequence of calls, every set of XML libraries and their acceptance of prefixes, every list of pairs", "why_tests_cant": "all histories of the configuration", "anchors": ["fastkml/config.py:set_etree_implementation", "fastkml/config.py:register_namespaces", "fastkml/config.py:set_default_namespaces"]}
{"id": "C70", "title": "The text written with ElementTree", "statement": "With xml.etree.ElementTree, the XML library used without lxml: after any history of configuration that registers prefixes which XML allows, every element that XML can hold is written and the text is read as the same element, and a canonical object in the default namespaces is the same after to_string and from_string, even if the prefixes are changed in between. A namespace with a registered prefix is written with this prefix, another one with a prefix of the form ns0. The root declares each namespace that is used, and no other, once, in the order of the prefixes. ValueError is raised exactly if a name opens a namespace and does not close it. With the empty prefix the same holds if no namespace is empty.", "quantifier": "every history of configuration, every table of prefixes, every element and typed canonical object", "why_tests_cant": "all object trees, all texts with characters that must be escaped, all tables of prefixes and histories", "anchors": ["fastkml/base.py:_BaseObject.to_string", "fastkml/base.py:_XMLObject.from_string", "fastkml/config.py:register_namespaces"]}
{"id": "C71", "title": "Comments and processing instructions", "statement": "With xml.etree.ElementTree, adding comments or processing instructions anywhere in a document, also inside texts, does not change what is read. With lxml the same holds, in strict and lenient mode and with errors included, if within each element only white space stands between its first comment and its first child element (nothing in a when; in coordinates, coord and angles only if the value is before the comment). Then both libraries lead to the same objects; for documents without comments they always give the same element tree.", "quantifier": "every document, every way of adding comments, every class, namespace and mode", "why_tests_cant": "all positions of comments in all documents, for two libraries", "anchors": ["fastkml/helpers.py:subelement_text_kwarg", "fastkml/helpers.py:node_text_kwarg", "fastkml/geometry.py:subelement_coordinates_kwarg", "fastkml/kml.py:lxml_parse_and_validate", "fastkml/base.py:_XMLObject.from_string"]}
{"id": "C72", "title": "Nothing is invented, and what was read can be saved", "statement": "Every value in an object that is read from an element is in that element, at all depths: a text, number, boolean, enumerated value or time is what the text of the XML attribute or child says that belongs to the attribute (in the lenient mode up to case and numerals), a list or object is read from children that belong to it, coordinates and rows of tracks are those written there. In particular every text in the object occurs in the document, and no character is added. So the conditions under which a saved object can be read back can be checked on the document: if its texts can be written in XML, its elements are in the namespaces of their classes and its years, positions, coordinates and ids of schemas are ones that can be kept, then what was read can be written, and reading it again gives the same object except for empty ones.", "quantifier": "every element, class, namespace mapping, mode, XML library that reads what it writes, text, file", "why_tests_cant": "The claim is about all documents, all depths and all attributes of every class; a test shows that expected values appear, not that no other value can.", "anchors": ["fastkml/base.py: _XMLObject.class_from_element", "fastkml/base.py: _XMLObject._get_kwargs", "fastkml/helpers.py: node_text_kwarg", "fastkml/helpers.py: xml_subelement_kwarg", "fastkml/helpers.py: xml_subelement_list_kwarg", "fastkml/helpers.py: clean_string", "fastkml/kml.py: KML.parse", "fastkml/kml.py: KML.write"]}
{"id": "C73", "title": "Valid documents are opened, saved and opened again without loss", "statement": "A document that is valid for the schemas, including the texts of all simple types, whose times and coordinates can be read, whose names are in the standard namespaces, whose texts can be written in XML and whose content lasts, is opened by from_string and by KML.parse in the strict mode; everything in it that fastkml supports is in the object; the object can be written as a string or file; and opening this, strictly or not, gives the same object again except for empty objects.", "quantifier": "every valid document, class, XML library that reads what it writes, file system, option pretty print and mode of the second reading", "why_tests_cant": "Samples cannot cover all valid documents, their nesting and combinations of elements.", "anchors": ["fastkml/base.py: _XMLObject.from_string", "fastkml/base.py: _XMLObject.to_string", "fastkml/kml.py: KML.parse", "fastkml/kml.py: KML.write", "fastkml/schema/"]}
{"id": "C74", "title": "A valid document is saved as a valid document", "statement": "Whatever is read from an element that is valid for the schemas, including the texts of all simple types, strictly or not, with from_string, from_element or KML.parse, is written by etree_element as an element with the same name that is valid for the schemas again, with all its texts and at all depths, in normal and terse output. This holds if the object is not empty; the numbers are decimal numbers of moderate size (Python writes infinities and NaN differently), the zones of times are ones that XML Schema has and years without a day have four digits; every position of a track has a time; a document does not have both schemas and features, and a file not both a control element and a feature, because fastkml writes these in an order that is not valid.", "quantifier": "every valid element of every class, mode, verbosity except verbose", "why_tests_cant": "There are infinitely many valid documents; whether the saved document is valid depends on the interplay of readers, writers, the order of registration and the content models of the schemas, at all depths.", "anchors": ["fastkml/base.py: _XMLObject.class_from_element", "fastkml/base.py: _XMLObject.etree_element", "fastkml/kml.py: KML.parse", "fastkml/helpers.py", "fastkml/registry.py: registry", "fastkml/schema/"]}
{"id": "C75", "title": "Texts that lxml refuses", "statement": "With lxml an object is written if and only if no text in the objects that are written (the object itself and the non-empty objects in its attributes, at all depths) has a character that XML does not have, such as a control character; the element is then the one that ElementTree would give, and otherwise writing raises ValueError, with every precision and verbosity, and KML.write changes no file. For objects whose texts XML can hold, the text and the file are those without lxml. Everything that was read from a document, in either mode, can be written with lxml, because an XML parser returns only characters of XML and reading adds none.", "quantifier": "every typed object at every depth, every document, class, mode, precision and verbosity", "why_tests_cant": "A test can try some control characters in some attributes; that no other place, depth or combination fails, and that reading can never produce such an object, is a claim about all objects and documents.", "anchors": ["fastkml/base.py: _XMLObject.etree_element", "fastkml/kml.py: KML.etree_element", "fastkml/helpers.py: node_text", "fastkml/helpers.py: text_subelement", "fastkml/helpers.py: text_attribute", "fastkml/config.py: etree"]}
{"id": "C76", "title": "What the text of a time means", "statement": "KmlDateTime.parse gives, for every text in the notation of XML Schema, the year, month, day or point in time that it means, with the resolution of the text: gYear, gYearMonth, date, and dateTime with up to six digits of a fraction of a second and any zone; a point in time without a zone is taken as UTC. str() of the result is a text in the same notation that means the same. These are all values of dateTimeType of the schemas except years that are negative, zero or have more than four digits, zones on a year, month or day, and fractions with more than six digits.", "quantifier": "every text that is a gYear, gYearMonth, date or dateTime, with every fraction and zone", "why_tests_cant": "There are infinitely many texts; each test checks one. That the value is the one that XML Schema assigns for every text, and that no two readings are possible, is a statement about the notation.", "anchors": ["fastkml/times.py: KmlDateTime.parse", "fastkml/times.py: KmlDateTime.__str__", "fastkml/times.py: adjust_date_to_resolution", "fastkml/times.py: year_month_day"]}
{"id": "C77", "title": "Ordinary documents are opened, kept, saved and opened again", "statement": "A document that is valid for the schemas and ordinary, a condition on its text alone, is opened by from_string, from_element and KML.parse in strict mode; everything in it that fastkml supports is in the object; the object can be written; what is written is valid again if the object is not empty; and opening it gives the same object again, except for empty objects. Ordinary means: numbers are decimal and of moderate size, times are in the notation of C76, coordinates and the positions of tracks are two or three numbers, a track has as many times as positions, levels of detail are integers, the types of simple fields are those of KML, schemas have an id, there are no times in the namespace of gx, and a document does not have both schemas and features, nor a file both a control element and a feature.", "quantifier": "every ordinary document, for every class, of any size and depth; pretty-printed or not", "why_tests_cant": "The claim is about all documents of the schemas; a test suite has a few hundred of them.", "anchors": ["fastkml/kml.py: KML.parse", "fastkml/kml.py: KML.write", "fastkml/base.py: _XMLObject.from_string", "fastkml/base.py: _XMLObject.to_string", "fastkml/base.py: _XMLObject.class_from_element", "fastkml/base.py: _XMLObject.etree_element"]}
{"id": "C78", "title": "Opening and saving do not multiply elements or identifiers", "statement": "When a document is opened, in either mode, every element gives at most one object: of the objects at all depths, at most as many have a given element name, and at most as many have a given element name and id, as there are elements with that name, or that name and id. When the object is saved, with any precision and verbosity, every id is in the saved document at most as often as in the document that was opened; so ids that were unique stay unique. find_all with an id finds at most as many objects as there are elements with that id, and if ids are unique, get_style_by_url returns the one style with the id.", "quantifier": "every document of any size and depth, valid or not; every class, namespace mapping, mode, precision and verbosity; every query with an id", "why_tests_cant": "A document can be nested to any depth, and a reader that visits an element twice, for two attributes or for two namespaces, does so only for particular combinations of elements.", "anchors": ["fastkml/base.py: _XMLObject.class_from_element", "fastkml/base.py: _XMLObject._get_kwargs", "fastkml/helpers.py: xml_subelement_kwarg", "fastkml/helpers.py: xml_subelement_list_kwarg", "fastkml/utils.py: find_all", "fastkml/containers.py: Document.get_style_by_url"]}
{"id": "C79", "title": "Opening and saving adds no elements", "statement": "A document that is opened, in either mode, and saved with normal or terse verbosity and any precision, has at most as many elements of every name as before, at most as many elements with a name and an id, and at most as many elements in all. The exceptions are the times and angles of tracks: saving a track writes an angle and a time for every position, also for those that had none; so a document grows by at most two elements for every gx:coord. Verbose output adds defaults, as it should.", "quantifier": "every document of any size and depth, valid or not; every class, namespace mapping, mode and precision; every element name and id", "why_tests_cant": "A default that is written although nothing was read, or a child that is written twice, shows only for particular combinations of elements, at any depth.", "anchors": ["fastkml/base.py: _XMLObject.class_from_element", "fastkml/base.py: _XMLObject.etree_element", "fastkml/helpers.py: xml_subelement", "fastkml/helpers.py: xml_subelement_list", "fastkml/gx.py: Track.__init__"]}
{"id": "C80", "title": "Interrupted and interleaved writes", "statement": "KML.write opens the file only when the text is complete: an object that cannot be written leaves every file as it was. If the process is killed, or the disk is full, at any point of a write, no other file has changed, and the file itself is as before or contains a beginning of the text (for .kmz: the old file, something that is not an archive, or the complete archive). Writing again after any number of interrupted attempts has the same result as if there had been none. Writers of different files that run at the same time, in any order of their effects, and with a crash at any point, do not affect each other. With ElementTree, KML.parse rejects every file that is not completely written. Two limits: the write is not atomic, so the old content is lost as soon as the file is opened; and with a parser that recovers, as lxml's is set to do, half a file opens without an error and with fewer features.", "quantifier": "every object, file, previous content, option, and every number of effects after which the write is interrupted; every way to split the text into parts; every interleaving of two writers; every proper beginning of every document", "why_tests_cant": "The crash points and schedules are unboundedly many; a test kills a process at one of them.", "anchors": ["fastkml/kml.py: KML.write", "fastkml/kml.py: KML.parse", "fastkml/kml.py: lxml_parse_and_validate"]}
{"id": "C81", "title": "The cache of schemas", "statement": "validate and KML.parse remember the schemas they loaded. As long as the schema files and the XML library stay the same, every call gives what it would give without the cache, whatever calls were made before. The remembered schemas are exactly the 16 that were used last since the cache was cleared; a schema that is not among them (not used before, displaced by 16 others, after cache_clear, or not loaded because of an error) is loaded from the file as it is now, and a schema that is used without being loaded was loaded earlier for the same argument, since the cache was cleared. Limit: a remembered schema is used although its file has changed or is gone, and although another XML library was set.", "quantifier": "every history of calls of validate, KML.parse, get_schema_parser and cache_clear, of changes of files and of the XML library; every schema argument, element and file", "why_tests_cant": "The behaviour of a cache depends on the complete history of calls, of which a test has one.", "anchors": ["fastkml/validator.py: get_schema_parser", "fastkml/validator.py: validate", "fastkml/kml.py: KML.parse", "fastkml/config.py: set_etree_implementation"]}
{"id": "C82", "title": "Lenient reading reports what it drops", "statement": "Lenient reading (strict=False) logs a record for each value that it drops: for a text that cannot be converted to a number, a boolean, an enumeration or a time, for a row of a track and for coordinates that are not numbers, wherever they are in the document; the record shows the element and the child or attribute owner. It also logs enumerations that are accepted in spite of their case. Documents that strict reading accepts are read without a record in both modes, strict reading logs at most one record and then raises KMLParseError, and if nothing is logged (and the booleans are written 0, 1, true or false) then strict reading accepts the document with the same result. Every record, in both modes, is about an element of the document; logging does not change what is read. Limits: booleans such as TRUE or 2 are accepted without a record although strict reading refuses them; malformed coordinates are reported twice.", "quantifier": "every element tree, every class, namespace and mapping", "why_tests_cant": "A value that is dropped silently can be anywhere in any document; silence as evidence that nothing was lost must hold for all of them.", "anchors": ["fastkml/helpers.py: handle_error", "fastkml/geometry.py: handle_invalid_geometry_error", "fastkml/enums.py: RelaxedEnum._missing_", "fastkml/base.py: _XMLObject.class_from_element"]}
{"id": "C83", "title": "Which times fit the schema", "statement": "str() of a KmlDateTime, which is what is written for when, begin and end, is a text of the schema's dateTimeType exactly if: where only the year or the year and month are written, the year is at least 1000; and where a time of day with a UTC offset is written, the offset is a number of whole minutes and at most 14 hours. Python allows offsets in microseconds below 24 hours; they are written as +HH:MM:SS.ffffff, which is not in the schema.", "quantifier": "every date, time of day, resolution and UTC offset that Python allows", "why_tests_cant": "all dates, times, resolutions and offsets in microseconds; that no reading of the text as any of the four types exists", "anchors": ["fastkml/times.py:KmlDateTime.__str__", "fastkml/times.py:KmlDateTime.__init__", "fastkml/schema/ogckml22.xsd:dateTimeType"]}
