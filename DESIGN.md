# Formal model of fastkml in Lean 4 — design

## Shape of the model

fastkml is a registry-driven object/XML mapper. Nearly every observable effect
goes through four mechanisms: the registry (`registry.py`), the generic reader
and writer (`base.py`), the per-type reader/writer functions (`helpers.py`,
plus some in `geometry.py` and `times.py`), and the constructors, `__bool__` and
properties of 75 classes. The model follows this. Everything is in
`lean/Verif/`.

| module | models |
|---|---|
| `Py.lean` | the Python string / int / dict primitives the code uses (the digits of all scripts are from Unicode 15, as in Python 3.12) |
| `Xml.lean` | element trees (`tag`, `attrib`, `text`, children) and `find`, `findall`, `get`, `set` |
| `Ext.lean` | the external world as parameters with recorded laws: `float`, `repr`, `format(.,'.nf')`, `arrow.get` |
| `Exact.lean` | the exact values of floats (used by C17 only) |
| `Geoif.lean` | the part of pygeoif that fastkml calls (external; from its documented behaviour) |
| `Enums.lean` | `enums.py` |
| `Times.lean` | `times.py`: dates, resolutions, `KmlDateTime` |
| `Value.lean` | Python values and objects (class, ns, name_spaces, attributes), class tables, `registry.py` |
| `Info.lean` | `__bool__` and `geometry` of every class |
| `Helpers.lean` | `helpers.py`, and the coordinate functions of `geometry.py`, the `when` functions of `times.py` |
| `Base.lean` | `base.py`: constructors, `etree_element`, `_get_kwargs`, `class_from_element`, `from_string`; the constructor of `gx.Track`; `KML.etree_element` |
| `Classes.lean` | generated by `tools/gen.py` from the text of `/repo` with Python's `ast`: classes, bases, tags, constructor parameters and normalisations, `__bool__` rules, every `registry.register` call, with file/line citations |
| `DictOrder.lean` | generated: which attributes a constructor sets before the base constructor runs |
| `Make.lean` | the `geometry=` argument of the geometry classes and of `Placemark`; `create_kml_geometry` |
| `Find.lean` | `utils.py` (`find_all`, `find`), `Document.get_style_by_url`, `StyleMap.normal`/`highlight` |
| `Url.lean` | `urllib.parse.urlsplit` (CPython's source) and `Document.get_style_by_url` with its errors |
| `Eq.lean` | `__eq__` |
| `Store.lean` | programs over objects and lists with identity: constructors, reading, assignments, `append`, changes of lists |
| `Lxml.lean` | the strings that lxml refuses to set |
| `LxmlFiles.lean` | `to_string` and `KML.write` with lxml |
| `Heap.lean` | `append` of containers, `KML`, `Schema`, `SchemaData`, with object identity and shared lists |
| `Files.lean` | `kml.py` (`KML.parse`, `KML.write`), `validator.py`, `to_string`, `from_string` |
| `Crash.lean` | `KML.write` as the sequence of its effects on files, interrupted at any point; a parser that recovers |
| `Offsets.lean` | `str()` of times whose UTC offset has seconds or microseconds |
| `Log.lean` | reading once more, with the calls of `logger.warning` and `logger.error` |
| `Cache.lean` | the cache of `get_schema_parser`, with changes of files and of the XML library between calls |
| `Access.lean` | `mixins.py`, the `icon_href` of `IconStyle` |
| `ReprTable.lean`, `Repr.lean` | `__repr__` (the table of printed arguments is generated by `tools/gen.py`), and evaluating what it prints |
| `XsdTypes.lean`, `XsdData.lean` | the XML schemas in `/repo/fastkml/schema`, generated by `tools/xsd2lean.py` |
| `Cascade.lean` | the documented extension (`examples/transform_cascading_style.py`): a new class and its registrations |
| `XmlInst.lean` | an XML printer and parser, to show that `Spec.Faithful` (C67) can be met; used for the concrete examples only |
| `Config.lean` | `config.py`: the XML library in use and the tables of prefixes |
| `Nodes.lean` | documents with comments and processing instructions, and the element trees that `lxml` and `xml.etree.ElementTree` make of them |
| `Std.lean` | `xml.etree.ElementTree`, the XML library fastkml uses without `lxml`: its writer after CPython 3.11's source, and a parser for a part of XML in place of expat |
| `ExtInst.lean`, `ExactInst.lean`, `Decide.lean`, `Render.lean` | instances of the parameters, and decision procedures; used for the concrete examples only |
| `Spec/*.lean` | small specifications written independently of the model |
| `Lemmas/*.lean` | lemmas |
| `Props/*.lean` | the property theorems `Cnn_…`, each with concrete instances beside it |

Exceptions are values (`Except Err`). All definitions are total and computable.
Most theorems are about every object tree, document or history and are proved by
induction. What is special about fastkml enters through the finite class table
(`Classes.lean`): conditions on it are checked once, by evaluation in the kernel
(`decide +kernel` over all classes, e.g. `Lemmas/Fastkml.lean`), and are
hypotheses of generic theorems.

## Trusted base

* Lean's kernel. The theorems depend on the axioms `propext`,
  `Classical.choice` and `Quot.sound` at most; none is added. There is no
  `sorry`, `native_decide` or `bv_decide`.
* The correspondence between model and code, by reading; every definition cites
  file and lines in `/repo`. The class table, the order of instance attributes, the
  arguments of `__repr__` and the schema table are extracted by scripts (`tools/gen.py`,
  `tools/xsd2lean.py`), which are part of the trusted base.
* The external laws below. They are fields of type classes, so a theorem that
  needs them says so; each class has an instance (`ExtInst.lean`,
  `ExactInst.lean`), so the laws are consistent.

Laws (`LawfulExt`): `float(str(f))` is `f`; `str(f)` and `f"{f:.{p}f}"` have no
blanks and commas and the latter is readable; `float(str(i))` is the conversion of
the integer `i`; `float("")` fails; `==` of floats is symmetric, reflexive except
for NaN, and false for NaN; `arrow.get` reads the ISO 8601 text (`Spec.IsoDateTime`) of an
aware datetime, reads a naive one as UTC, and returns valid aware datetimes.
`LawfulExact` (C17 only): formatting and reading of decimals are correctly rounded.
`LawfulClose` (C39 and C57 only): `math.isclose` is reflexive except for NaN, and symmetric.
`LiteralExt` (C68 only): float literals and floats of integers are not NaN.
`Spec.ReadsDoubles` (C63_values, C73, C74_opened and C77 only): `float` reads every `double` of XML Schema, with white
space around it (`XFix` in `Props/Simple.lean` is an instance).
`Spec.ReadsTimes` (C76 and C77 only): `arrow.get` reads the points in time of XML Schema, with at most six digits
of a fraction; a missing zone means UTC.
`Spec.DecimalNumbers` (C77 only): `float` does not read a decimal number as `nan`.
`Spec.KeepsRanges` (C74 and C77 only): `str(float(s))`, for a decimal number `s` between two integers of at most
`2^53` in absolute value, is a decimal number between these (reading is rounding to nearest, and
these integers are floats). `Fix` and `XFix` are instances (`Props/Ranges.lean`).
`AsciiExt` (C67, C70, C72, C73 and C77 only): `str(f)` and `f"{f:.{p}f}"` are printable ASCII.
`Spec.LawfulLibs` (C69_defaults only): the XML libraries accept the prefixes `kml`, `atom`, `gx`.
`Spec.Faithful W` (C67, C72, C73 and C77 only, a hypothesis about the XML library `W`): every element whose
names, texts and attribute values XML can hold (`Spec.Writable`) is printed, and what was
printed is read, from the string or from its UTF-8 bytes in a file, as the same element up to
white space before the first child of an element; `xmlns` is read as the namespace of what is
inside. `XmlInst.lean` is a printer and parser that meet this, and `C70_faithful` proves it of
the model of `xml.etree.ElementTree`. The two namespaces that XML reserves are excluded. Writable texts have no carriage
returns and no control characters except tabs and line feeds, attribute values no control
characters except these three (writers escape them there): XML parsers change the others, or
`lxml` refuses them.

## What is not modelled

* The textual XML layer: `lxml` / `ElementTree` is a tree of elements. Encodings and DTDs are
  not modelled; comments and processing instructions are in `Nodes.lean` (C71), where the
  two ways of finding `element.text` are taken from the libraries, which are not in `/repo`
  (that both ignore comments in `find`, `findall` and schema validation is trusted); what is written is the tree of `etree_element`, what is read is the
  tree the parser returns. In `Files.lean` the XML library is a parameter, and C67
  says what follows from the law that it reads what it writes. C70 is about the text
  of `xml.etree.ElementTree` (`Std.lean`): prefixes, declarations and escaping are modelled
  as in CPython's source, which is not in `/repo`; expat is replaced by a parser that knows
  elements, attributes, namespaces, the entities that are written, character data and the
  normalisation of line ends and attribute values, and rejects the rest. That `lxml` raises
  `ValueError` when a text or attribute with control characters is set is in `Lxml.lean`
  (C75); the theorems that `etree_element` succeeds (C54) are about texts without them when
  `lxml` is used. lxml also refuses namespaces that are not URIs; this is not modelled.
* `str.lower` is ASCII lower casing plus the one non-ASCII code point that lowers
  to ASCII (KELVIN SIGN); this is exact for comparing with ASCII words.
* Python's limit of 4300 digits for `int(str)`, memory; recursion limits, except that
  `Store.lean` counts nested objects.
* Object identity, except in `Heap.lean` and `Store.lean`. In particular the identity shortcut of
  Python's container comparison (which matters for NaN only).
* Values of types other than those annotated. `typed` demands the registered
  classes exactly; a user-defined subclass instance is outside of the theorems that
  ask for typed objects.
* Assignment to attributes after construction is modelled in `Store.lean` (C64, C65):
  the theorems about writing hold for all typed objects, and objects remain typed.
  Deleting attributes, changing `name_spaces` in place and iterables other than
  lists are left out there.
* The text of `__repr__`: it is modelled as the expression it stands for (C57);
  Python's `repr` of text, numbers, times, dictionaries and pygeoif's geometries is
  taken to print an expression for the value, with all names in scope.
* `logging` except for the records of reading (`Log.lean`, C82; the levels and the rest of the text are left out), `__str__`, warnings; which XML library is installed (`config.py:36-43`).
* The check of IP addresses and NFKC in `urlsplit` (parameters, `UrlLib`); file system errors other than the interruption of a write (C80); which part of an
  incomplete tag or text a recovering parser keeps; `os.linesep`; the change of
  `PurePath.suffix` in Python 3.14.
* Schemas: content models, attributes and all simple types (`Spec/Xsd.lean`,
  `Spec/Simple.lean`) are modelled; choices are flattened in the way `Spec/Xsd.lean` says;
  wildcards, the uniqueness of IDs (see C78) and the hour 24 are left out.

## Findings

Properties that one would expect and that are false of the code. Each is a theorem
with a concrete witness.

| theorem | finding |
|---|---|
| `C07_valueError_lenient` | a non-integer `maxLines` or `length` raises a bare `ValueError`, even in lenient mode |
| `C07_typeError_lenient` | one- or four-dimensional coordinates in a list filtered for emptiness raise `TypeError`, even in lenient mode |
| `C11_not_document_order` | reading regroups the members of a list by class |
| `C14_lists_lost` | list children have no fallback to the empty namespace: documents without namespace lose their features |
| `C59_element` | the `xmlns` attribute of a `KML` object without namespace has no effect on the element tree: `class_from_element` of the element loses the content |
| `C02_foreign_member` | list members in a foreign namespace are written and not read back |
| `C02_track_angles` | a track item without angle shifts the angles of the following items |
| `C02_track_times`, `C02_track_no_times` | a track item without time, before one with a time, gets the time of that one; the items of a track in which no item has a time are lost |
| `C33_mispaired` | in lenient mode a malformed `when` shifts the times of all later positions |
| `C79_angles`, `C79_times` | a track that is opened and saved has an angle of zero for every position that had none, and a `gx:when` with the text `()` for every position without a time |
| `C80_lost` | `KML.write` is not atomic: if it is interrupted after the file is opened, the old content is gone |
| `C80_recovered` | with a parser that recovers (`recover=True`, kml.py:103), a file that was cut off opens without an error, with fewer features |
| `C83_monrovia` | a time whose UTC offset has seconds (`Africa/Monrovia` before 1972) is written as a text that the schema rejects |
| `C82_boolean` | lenient reading accepts `TRUE` as a boolean, which strict reading refuses, without a record in the log |
| `C82_twice` | malformed coordinates are reported twice, once for each namespace of the attribute |
| `C81_stale` | a schema that is remembered is used although its file has changed, and although another XML library was set |
| `C47_when_not` | whitespace around a `when` of a gx:Track is not stripped |
| `C15_not_stable` | a `StyleMap` whose pairs are all empty is written once and gone after the next cycle |
| `C20_naive`, `C20_small_year` | naive datetimes come back as UTC; years below 1000 cannot be read back |
| `C60_blank_schema_id` | a document with `<Schema id=" ">` can be opened and saved, but not opened again |
| `C60_track_namespace` | a `Track` in the KML namespace is read, but its positions are lost when it is saved and read again |
| `C61_screen_overlay` | a `ScreenOverlay` that is the feature of a document is not read, although it can be appended and written |
| `C61_pair`, `C61_author` | of the `styleUrl` and `Style` of a `Pair`, and of several names of an author, only the first is read |
| `C61_lod` | fractional `minLodPixels` etc., which the schemas allow, are rejected in strict mode and dropped in lenient mode |
| `C27_empty` | `create_kml_geometry` fails for empty geometries |
| `C36_no_hash` | a url without `#` finds a style without id |
| `C36_url_bracket` | a url such as `http://[a/b.kml#s` is refused with `ValueError` although only its fragment is used |
| `C38_kml_self`, `C38_cycle` | `KML.append` accepts the object itself; indirect cycles are not detected |
| `C39_altitude_ignored` | `LineString`, `LinearRing` and `Polygon` ignore `altitude_mode` in `==` |
| `C39_not_symm`, `C39_not_refl`, `C39_not_trans`, `C39_empty_line` | `==` with extra keyword arguments is not symmetric; NaN; `isclose` is not transitive; an empty `LineString` equals an empty `LinearRing` |
| `C41_mutation` | `KML.parse` writes into the caller's `name_spaces` |
| `C43_index` | `validate` raises `IndexError` if an error path selects no node |
| `C43_unvalidated` | without lxml nothing is validated, even on request |
| `C44_document` | a `Document` with features and schemata is not valid: schemata are written last |
| `C44_control` | after reading, a `NetworkLinkControl` comes after the features |
| `C44_styles` | styles are written in list order, which may be invalid |
| `C44_year`, `C44_nan`, `C44_color`, `C44_angle`, `C44_id` | values outside of the declared types are written: the year 999 with three digits, `nan` for `NaN`, `red` as a colour, 91 degrees, an id that begins with a digit |
| `C44_verbose_icon` | verbose output of an `IconStyle` is invalid |
| `C45_no_time` | a track row without time writes `gx:when` with text `()` |
| `C46_lod_hotSpot` | `minLodPixels` 256 (schema: 0), hot spot 0.5 (schema: 1.0): terse output changes the meaning |
| `C49_schema_blank` | a `Schema` with a blank id is accepted and has id `None` |
| `C57_ring_lost` | `repr` of a `Polygon` does not print the ids and altitude modes of its rings; the evaluated polygon is "equal" |
| `C57_coordinates_lost` | `repr` of a `LineString` with coordinates of different dimensions prints `geometry=None`; the evaluated line has no coordinates and is "equal" |
| `C62_overlay`, `C62_no_kwargs` | the constructors of overlays accept no further keyword arguments: after registering an attribute for overlays or for all features, overlays that have it cannot be read (`TypeError`) |
| `C62_kml` | an attribute registered for `KML` is read but never written |
| `C62_foreign` | a text element registered in another namespace than that of its class is read, but written in the namespace of the class and not read again |
| `C63_schema_rejected`, `C63_lod_rejected`, `C63_field_rejected` | schema-valid documents that strict reading rejects: a `Schema` without id, a fraction in a `Lod`, an unknown type of a `SimpleField` |
| `C63_track_rejected`, `C63_length_rejected` | schema-valid documents for which reading stops with a `TypeError` or `ValueError`: a track with more times than positions, an `atom:link` whose length is not a number |
| `C65_coordinates_alias` | `Coordinates(coords=l)` keeps the list `l` of the caller (`coords or []`), all other constructors copy: changing `l` later changes the object |
| `C65_assigned_shared` | a list assigned to two objects is shared: what is appended to one is in the other |
| `C68_network_link_control` | verbose output writes `0` and `-1` for the defaults of `minRefreshPeriod` and `maxSessionLength`; after reading they are floats and `0.0` and `-1.0` are written |
| `C68_terse_shrinks` | a `Style` with nothing but default values is written tersely as empty elements, and is gone in the next document |
| `C70_switch` | prefixes belong to the XML library: after `set_etree_implementation` without `set_default_namespaces`, KML is written with the prefix `ns0` |
| `C70_unclosed` | a namespace that opens a brace and does not close it is accepted when an object is made; `to_string` then raises `ValueError` |
| `C70_bad_prefix` | `register_namespaces` accepts with `ElementTree` prefixes that XML does not allow; what is written then cannot be read |
| `C70_two_xmlns` | with the empty prefix for KML, a `KML` object without namespace and features in the KML namespace is written with two attributes `xmlns`; this cannot be read |
| `C70_carriage_return` | with `ElementTree` the carriage returns in a text (a description with line ends of Windows) are lost: they are not escaped, and parsers remove them |
| `C71_value_lost`, `C71_points_lost` | with `lxml` the value after a comment or processing instruction in an element is dropped without an error, also in strict mode: `<coordinates>0,0 1,1 <!-- detour --> 2,2</coordinates>` is read as two points; `xml.etree.ElementTree` reads three |
| `C71_when` | `<when>2020<!-- c --> </when>` is read with `lxml` and an error with `xml.etree.ElementTree`, because white space matters in `when` (`C47_when_not`) |
| `C74_document`, `C74_control` | valid documents with a schema and a feature, or files with a control element and a feature, are saved as invalid ones |
| `C75_form_feed` | a text with a control character is accepted by the constructors; with `lxml`, writing the document raises a bare `ValueError` |
| `C57_schema` | `repr` of a `Schema` with a blank id prints `id=None`, which the constructor rejects |

## Plan per property

* **C01 Write/read round trip** — Generic theorem over every registry that satisfies a decidable well-formedness condition, by induction on the object tree; then instantiated to the generated registry.
* **C02 What a write/read cycle does to an arbitrary object** — Specification function `readback` on objects; theorem parse(ser v) = readback v by induction.
* **C03 Terse output drops exactly the defaults** — Case theorem for `get_value` and lifted to the element written.
* **C04 Verbose output makes defaults explicit** — Same as C02 with verbosity parameter.
* **C05 Lenient reading is a conservative extension of strict reading** — Induction on the element; per-reader lemma strict ok => lenient same.
* **C06 Lenient reading never raises KMLParseError** — Induction on the element; per-reader lemma.
* **C07 The only exceptions reading can raise** — Induction with an exception-set invariant; witnesses for each exception.
* **C08 Strict reading never drops a malformed value** — Per-reader inversion lemma lifted through `_get_kwargs`.
* **C09 Reading depends only on registered content** — Agreement relation on elements; parse congruence.
* **C10 First occurrence wins** — Reader depends on first child of the name.
* **C11 List children: complete, ordered within a class, grouped by class** — List reader equals concatenation of filters; counterexample for interleaving.
* **C12 Children are written in registration order, ancestors first** — `etree_element` children = concatenation over registry items.
* **C13 Registry.get collects the ancestors' registrations** — Induction on registration history.
* **C14 Namespace fallback on reading** — Characterisation of the namespace loop; negation for lists.
* **C15 A child is written iff it is truthy** — Writers' specification; StyleMap counterexample.
* **C16 precision affects only coordinates** — Relation on element trees ignoring coordinate text; induction.
* **C17 Rounding error bound of precision** — Exact decimal arithmetic instance (rationals) of the formatting function.
* **C18 Boolean text** — Decision theorem over all strings.
* **C19 Enumerations** — Decision theorem over all strings, all enums.
* **C20 KmlDateTime round trip** — Proof over all dates using digit lemmas; arrow as parameter with law; negations.
* **C21 KmlDateTime.parse accepts the XSD lexical forms with the right resolution** — Regex as a function; characterisation over all strings.
* **C22 KmlDateTime normalisation** — Case analysis.
* **C23 Text normalisation** — Induction on strings.
* **C24 Coordinates text round trip** — join/split lemmas.
* **C25 Coordinates parsing tolerates spacing** — split lemmas.
* **C26 Coordinates dimension check on writing** — Case analysis.
* **C27 Geometry conversion round trip** — Induction on geometries.
* **C28 Geometry classification** — Case analysis on lists.
* **C29 Geometry arguments are mutually exclusive** — Case analysis.
* **C30 Rings are closed** — pygeoif LinearRing model.
* **C31 Polygon holes** — filterMap characterisation.
* **C32 gx:Track pairing** — zip lemmas.
* **C33 Lenient reading can mis-pair track rows** — Negation with witness.
* **C34 MultiTrack keeps exactly the non-empty tracks** — filter characterisation.
* **C35 find_all is complete, sound and ordered** — Inductive reachability relation vs. the traversal.
* **C36 get_style_by_url resolves the fragment** — From C35 plus urlparse fragment. `Url.lean` models `urlsplit` with its errors; `C36_url` reduces it to the function without errors, `C36_url_raises` says of every url whether it raises: exactly when its host (`Spec.HostOf`) is refused (`Spec.BadHost`).
* **C37 StyleMap.normal and highlight** — List find.
* **C38 Containers keep appended features in order** — Heap of containers, histories by induction.
* **C39 Equality** — Induction on trees; negation.
* **C40 Namespace mapping of objects** — Dictionary update lemmas.
* **C41 KML.parse namespace detection** — Decision theorem, state = caller's dictionary.
* **C42 KML.write target** — Small file-system effect model.
* **C43 Validation decision logic** — Decision table with validator as parameter.
* **C44 Written children follow the XSD sequence** — XSD content models as independent generated table; theorem over all objects. The lexical spaces of the simple types are specified in `Spec/Simple.lean`; a table of declared types against registered writers shows which values can appear where.
* **C45 Element and attribute names are those of the XSD** — Same table.
* **C46 Omitted defaults mean the same to other readers** — Table comparison; negations.
* **C47 Whitespace and pretty printing are irrelevant** — Relation on elements; congruence of parse.
* **C48 Lenient mode isolates errors** — Equality of parse results.
* **C49 Identifiers** — Case analysis.
* **C50 IconStyle icon precedence** — Case analysis.
* **C51 Time accessors** — Case analysis.
* **C52 Location and Model geometry** — Case analysis.
* **C53 Emptiness predicates** — Per-class theorem.
* **C54 Serialisation of typed objects succeeds** — Induction.
* **C55 ExtendedData keeps exactly the non-empty entries** — Filter characterisation.
* **C56 Enumerations are those of the schemas** — Table comparison over all classes.
* **C57 `eval(repr(obj)) == obj`** — `Repr.lean` models printing and evaluating as mutually recursive functions; by induction on the object, evaluating gives the object with the coordinates of lines and rings and the boundaries of polygons made from their geometries (`Spec.rebuilt`), which is then shown to be equal and to be printed alike.
* **C58 Documents are read and written alike in every namespace** — Induction on the document (`renXml`) and on the object (`renVal`): every reader and writer commutes with an injective renaming of namespaces; `KML.parse` takes the KML namespace from the root.
* **C59 A document without namespace is saved in the KML namespace** — `Spec.resolve` specifies what an XML parser does with `xmlns`; the writing half of C58 for the non-injective map that puts no namespace into the KML namespace, then C01/C02.
* **C60 Open, save, open** — Whatever the reader returns is typed, laid out like its class, trimmed and grouped (`Settled`, by induction on the document); with C02 this gives the cycle, which on such objects only removes empty objects (`Spec.prune`).
* **C61 Reading loses nothing that is supported** — `Spec.holder` and `Spec.unsupported` state the vocabulary; the table of registrations is compared with the particles of the schemas for every class, uniqueness comes from the content models (`Accepts`), and C08, C11 and C14 give the values; induction on the document.
* **C62 Registering a new attribute** — The generic functions are compared for `L` and `L.register c it`: induction on the document (reading) and on the object (writing). For round trips the extended library is compared with the library in which the constructor has a parameter of that name (`Spec.declared`), which meets the conditions of the generic C01/C02.
* **C63 Valid documents are accepted** — `Spec.Fit` says which texts must be readable; every registered reader succeeds on it (induction on the document), values are typed (C54's invariant), so that writing succeeds; `Valid` is reduced to `Fit` for numbers and times by comparing the declared types with the registered readers for every class.
* **C64 Objects can be written after any history** — A store of objects and lists by address; well-typedness is an invariant of every step, objects are finite trees unless they are below themselves (paths without repetition are no longer than the number of objects), and the tree of an object is what C54 and the other theorems are about; the constructors of the store agree with those of trees.
* **C65 Changes are local** — The tree of an object depends only on the cells below it; new cells are not below old ones; ownership of lists is an invariant of programs that hand no list over.
* **C66 Integers** — `int()` and `str()` are modelled as functions on texts; a grammar (`Spec.IntText`) and numerals (`Spec.Numeral`) are specified separately, and both directions are proved by induction on the text.
* **C67 Through text** — `to_string`, `from_string`, `KML.write`, `KML.parse` with an XML library as a parameter and one law about it, that it reads what it writes (`Spec.Faithful`). What is proved here is that fastkml only writes elements for which the law applies: every element, attribute and text of the tree of an object is legal XML (induction on the object, with the table of all names), white space is only added where it is not read (C47), and `xmlns` is only used where C59 allows it. With C01, C02, C59 and C60 this gives the round trips through strings and files.
* **C68 Verbosity levels** — `Spec.Within` compares documents without reference to the code; by induction on the object, each registered attribute contributes at each level something within what it contributes at the next. For the other relations, objects that were read back are the originals with scalars changed (C03, C04), and it is proved that such a change (`mapScalars`) does not change the document if it does not change what is shown of each attribute, nor which children are empty; filling in defaults makes no child empty (case distinction over the rules for emptiness).
* **C69 Prefixes** — `Config.lean` is a state machine: the library in use and a table of prefixes per library. Invariants over all sequences of calls by induction; the effect of one call by induction on the registered pairs.
* **C70 The text of ElementTree** — The writer of CPython's `xml.etree.ElementTree` collects names and prefixes in document order, then prints. It is proved by induction on the element that the collected prefixes are one to one and legal, that the printed text lexes to the expected tokens, and that reading resolves every name to the original one. With C67's lemma that fastkml only writes elements XML can hold, this gives the round trip of objects for every table of prefixes, and with the invariant of C69 for every history of configuration. `C70_refused` says exactly when `ValueError` is raised, by induction on the element with the invariant that no collected name is unclosed; `C70_declares` says which namespaces the root declares and in which order.
* **C71 Comments** — `Nodes.lean` has documents with comments and the two ways in which the XML libraries find the text of an element. That the tree of `ElementTree` does not change is an induction on how the comments were added (`Spec.Commented`). For `lxml`, the tree of a document whose comments do not separate a value (`Spec.Quiet`) is the tree of `ElementTree` up to white space that C47 shows to be irrelevant.
* **C72 Nothing is invented** — `Spec/Said.lean` says what it means that an object holds nothing but what is in an element, by recursion on the element, with names from the schemas and fastkml's naming rule (`holder`) and not from the registry. Induction on the element: each registered attribute is the value of a text at a place that belongs to it (C14, C66), or was read from such a child. With this the conditions of C67 on the object (`Legal`, `Lasting`) follow from conditions on the document (`LegalDoc`, `LastingDoc`).
* **C73 Valid documents** — C63 (valid documents are accepted, nothing supported is lost) and C72 together.
* **C74 Valid documents stay valid** — `Spec/Resaved.lean` says which valid documents can be written again (`Repeatable` for texts, `Orderly` for elements). By induction on the element: every object in the result comes from a valid element of the type of its class, so its lists are in the order of the schema and its values of the declared types; these are the hypotheses of C44.
* **C75 Control characters** — `Lxml.lean` adds the check of lxml to `etree_element`. Induction on the element: every part of it is written for an object that is reached (`Spec.Reached`), and conversely every such object and all of its texts are in the element. With C72 (reading adds no characters) it follows that what was read can be written. Elements that XML can hold (C67) are accepted, so C67 holds with lxml, too; a refused text changes no file.
* **C76 What times mean** — `Spec/Moments.lean` gives the notation of XML Schema together with the value of a text (`TimeText`). `parse` is shown to return that value, by cases on the resolution, from the model of the regular expression and the law about `arrow.get`; `str` is shown to be in the notation again. `C76_covers` compares the notation with `MomentText`, the specification of `dateTimeType` of C63.
* **C77 Ordinary documents** — `Spec/Ordinary.lean` states conditions on texts and elements that do not mention fastkml or Python. From these and validity, the conditions of C63 (`Fit`), C72 (`Standard`, `LastingDoc`) and C74 (`Orderly`, `Repeatable`) are derived: every element of a valid document has a declared name, and a finite check of all declarations of the schemas says which class or reader takes it.
* **C78 Elements and identifiers are not multiplied** — `Spec/Labels.lean` lists the names and identifiers of all elements of a document and of all objects in an object. For a weight of names and identifiers, the weight of what is read is bounded by that of the document, by induction over it: the items of a class look for children with different names (a finite check), so that every child counts once, and the constructor stores every argument once. The bound for writing is proved in the same way. The counts are instances.
* **C79 Nothing is added** — by induction over the document that was opened: the block of children that is written for an item is bounded by the children that the item looks for, since a value that is written was read from one of them; `C33_rows` bounds the rows of tracks by their positions, which pay for the times and angles that are added (`Charged`, `C79_when`, `C79_angle`, `C79_total`).
* **C80 Interrupted writes** — `Crash.lean` models `KML.write` as a list of effects; a crash is a prefix of the list, a schedule an interleaving of two lists (`Interleaved`). What happens to a file depends on the effects on it alone (`effects_path`), which gives the independence of writers. `Lemmas/Prefix.lean` proves that no proper beginning of a document is a document: by induction on the text, the tokens of a beginning are a beginning of the tokens, or end with an incomplete text, and by induction on tokens an element that is open stays open.
* **C81 The cache of schemas** — `Cache.lean` adds the cache to the state of a program, which makes calls, changes files and clears the cache. Induction on the history: every entry was loaded at an earlier time (`C81_origin`), from which transparency follows; and the keys are those of `Spec/Recent.lean`, since removing the last one of 17 keys commutes with moving a key to the front (`filter_take`).
* **C82 Lenient reading reports what it drops** — `Log.lean` is the code of reading with what it logs; `C82_result` shows that its results are those of `Base.lean`. Induction on the element tree: strict success implies silence (`C82_quiet`), silence implies strict success (`C82_silent`), and records for dropped values reach the log of the whole document (`C82_dropped`, `C82_rows`, `C82_coordinates` for one element, `C82_members` and `C82_child` for the way up).
* **C83 Which times fit the schema** — The texts of the four types are told apart by their colons and lengths: a text of `dateTimeType` has at most three colons, an offset with seconds gives a fourth; the zone of a text with three colons is its last six characters.
