{
 "claims": [
  {
   "property": "C01",
   "status": "proved",
   "theorems": [
    "Verif.C01_roundtrip",
    "Verif.C01_default"
   ],
   "note": ""
  },
  {
   "property": "C02",
   "status": "proved",
   "theorems": [
    "Verif.C02_cycle",
    "Verif.C02_readable",
    "Verif.C02_track_angles",
    "Verif.C02_track_times",
    "Verif.C02_track_no_times",
    "Verif.C02_foreign_member"
   ],
   "note": ""
  },
  {
   "property": "C03",
   "status": "proved",
   "theorems": [
    "Verif.C03_terse",
    "Verif.C03_omitted",
    "Verif.C03_read"
   ],
   "note": ""
  },
  {
   "property": "C04",
   "status": "proved",
   "theorems": [
    "Verif.C04_verbose",
    "Verif.C04_read"
   ],
   "note": ""
  },
  {
   "property": "C05",
   "status": "proved",
   "theorems": [
    "Verif.C05_conservative",
    "Verif.C05_fromElement"
   ],
   "note": ""
  },
  {
   "property": "C06",
   "status": "proved",
   "theorems": [
    "Verif.C06_lenient",
    "Verif.C06_fromElement"
   ],
   "note": ""
  },
  {
   "property": "C07",
   "status": "proved",
   "theorems": [
    "Verif.C07_exceptions",
    "Verif.C07_kinds",
    "Verif.C07_valueError_lenient",
    "Verif.C07_typeError_lenient"
   ],
   "note": ""
  },
  {
   "property": "C08",
   "status": "proved",
   "theorems": [
    "Verif.C08_strict"
   ],
   "note": ""
  },
  {
   "property": "C09",
   "status": "proved",
   "theorems": [
    "Verif.C09_content",
    "Verif.C09_unknown_child",
    "Verif.C09_unknown_attribute",
    "Verif.C09_order"
   ],
   "note": ""
  },
  {
   "property": "C10",
   "status": "proved",
   "theorems": [
    "Verif.C10_first",
    "Verif.C10_names"
   ],
   "note": ""
  },
  {
   "property": "C11",
   "status": "proved",
   "theorems": [
    "Verif.C11_list",
    "Verif.C11_classes",
    "Verif.C11_not_document_order"
   ],
   "note": ""
  },
  {
   "property": "C12",
   "status": "proved",
   "theorems": [
    "Verif.C12_order",
    "Verif.C12_assignment",
    "Verif.C13_fastkml"
   ],
   "note": ""
  },
  {
   "property": "C13",
   "status": "proved",
   "theorems": [
    "Verif.C13_get",
    "Verif.C13_unrelated",
    "Verif.C13_inserts",
    "Verif.C13_fastkml"
   ],
   "note": ""
  },
  {
   "property": "C14",
   "status": "proved",
   "theorems": [
    "Verif.C14_scalar",
    "Verif.C14_object",
    "Verif.C14_fallback",
    "Verif.C14_lists_lost"
   ],
   "note": ""
  },
  {
   "property": "C15",
   "status": "proved",
   "theorems": [
    "Verif.C15_object",
    "Verif.C15_list",
    "Verif.C15_stable",
    "Verif.C15_not_stable"
   ],
   "note": ""
  },
  {
   "property": "C16",
   "status": "proved",
   "theorems": [
    "Verif.C16_precision",
    "Verif.C16_tags"
   ],
   "note": ""
  },
  {
   "property": "C17",
   "status": "proved",
   "theorems": [
    "Verif.C17_coordinates",
    "Verif.C17_track",
    "Verif.C17_idem",
    "Verif.C17_again",
    "Verif.C17_read",
    "Verif.C17_cycle"
   ],
   "note": "from the laws of LawfulExact: float formatting and parsing are correctly rounded"
  },
  {
   "property": "C18",
   "status": "proved",
   "theorems": [
    "Verif.C18_strict",
    "Verif.C18_lenient",
    "Verif.C18_read_strict",
    "Verif.C18_roundtrip"
   ],
   "note": ""
  },
  {
   "property": "C19",
   "status": "proved",
   "theorems": [
    "Verif.C19_distinct",
    "Verif.C19_strict",
    "Verif.C19_lenient",
    "Verif.C19_letters",
    "Verif.C19_roundtrip"
   ],
   "note": ""
  },
  {
   "property": "C20",
   "status": "proved",
   "theorems": [
    "Verif.C20_text",
    "Verif.C20_roundtrip",
    "Verif.C20_naive",
    "Verif.C20_small_year"
   ],
   "note": ""
  },
  {
   "property": "C21",
   "status": "proved",
   "theorems": [
    "Verif.C21_pattern",
    "Verif.C21_date",
    "Verif.C21_yearMonth",
    "Verif.C21_year",
    "Verif.C21_arrow"
   ],
   "note": ""
  },
  {
   "property": "C22",
   "status": "proved",
   "theorems": [
    "Verif.C22_normal",
    "Verif.C22_default",
    "Verif.C22_consistent",
    "Verif.C22_idempotent",
    "Verif.C22_valid",
    "Verif.C22_eq_equiv",
    "Verif.C22_eq_iff"
   ],
   "note": ""
  },
  {
   "property": "C23",
   "status": "proved",
   "theorems": [
    "Verif.C23_white",
    "Verif.C23_clean",
    "Verif.C23_idempotent",
    "Verif.C23_constructor"
   ],
   "note": ""
  },
  {
   "property": "C24",
   "status": "proved",
   "theorems": [
    "Verif.C24_roundtrip",
    "Verif.C24_precision"
   ],
   "note": ""
  },
  {
   "property": "C25",
   "status": "proved",
   "theorems": [
    "Verif.C25_spacing",
    "Verif.C25_count"
   ],
   "note": ""
  },
  {
   "property": "C26",
   "status": "proved",
   "theorems": [
    "Verif.C26_write"
   ],
   "note": ""
  },
  {
   "property": "C27",
   "status": "proved",
   "theorems": [
    "Verif.C27_convert",
    "Verif.C27_same",
    "Verif.C27_empty",
    "Verif.C27_attributes",
    "Verif.C27_members"
   ],
   "note": ""
  },
  {
   "property": "C28",
   "status": "proved",
   "theorems": [
    "Verif.C28_none",
    "Verif.C28_points",
    "Verif.C28_lines",
    "Verif.C28_polygons",
    "Verif.C28_collection",
    "Verif.C28_multi"
   ],
   "note": ""
  },
  {
   "property": "C29",
   "status": "proved",
   "theorems": [
    "Verif.C29_coordinates",
    "Verif.C29_boundary",
    "Verif.C29_polygon",
    "Verif.C29_multi",
    "Verif.C29_placemark",
    "Verif.C29_placemark_geometry",
    "Verif.C29_track"
   ],
   "note": ""
  },
  {
   "property": "C30",
   "status": "proved",
   "theorems": [
    "Verif.C30_ring",
    "Verif.C30_boundary",
    "Verif.C30_polygon"
   ],
   "note": ""
  },
  {
   "property": "C31",
   "status": "proved",
   "theorems": [
    "Verif.C31_holes",
    "Verif.C31_normal",
    "Verif.C31_none"
   ],
   "note": ""
  },
  {
   "property": "C32",
   "status": "proved",
   "theorems": [
    "Verif.C32_rows",
    "Verif.C32_same",
    "Verif.C32_roundtrip"
   ],
   "note": ""
  },
  {
   "property": "C33",
   "status": "proved",
   "theorems": [
    "Verif.C33_mispaired",
    "Verif.C33_rows",
    "Verif.C33_paired",
    "Verif.C33_exact"
   ],
   "note": "the intended pairing is false in lenient mode (C33_mispaired); C33_exact says exactly when it holds"
  },
  {
   "property": "C34",
   "status": "proved",
   "theorems": [
    "Verif.C34_tracks",
    "Verif.C34_geometry",
    "Verif.C34_track"
   ],
   "note": ""
  },
  {
   "property": "C35",
   "status": "proved",
   "theorems": [
    "Verif.C35_exact",
    "Verif.C35_order",
    "Verif.C35_children",
    "Verif.C35_lists",
    "Verif.C35_find",
    "Verif.C35_first"
   ],
   "note": ""
  },
  {
   "property": "C36",
   "status": "proved",
   "theorems": [
    "Verif.C36_found",
    "Verif.C36_none",
    "Verif.C36_first",
    "Verif.C36_fragment",
    "Verif.C36_only_fragment",
    "Verif.C36_no_hash",
    "Verif.C36_read",
    "Verif.C36_url",
    "Verif.C36_url_plain",
    "Verif.C36_url_local",
    "Verif.C36_url_raises",
    "Verif.C36_url_host",
    "Verif.C36_url_bracket"
   ],
   "note": "urlsplit is modelled after CPython's source; the check of IP addresses and NFKC are parameters. C36_url_raises says for every url whether it is refused; C36_url_bracket is a url that is refused although only its fragment is used."
  },
  {
   "property": "C37",
   "status": "proved",
   "theorems": [
    "Verif.C37_normal",
    "Verif.C37_highlight",
    "Verif.C37_none"
   ],
   "note": ""
  },
  {
   "property": "C38",
   "status": "proved",
   "theorems": [
    "Verif.C38_history",
    "Verif.C38_create",
    "Verif.C38_list",
    "Verif.C38_self",
    "Verif.C38_valueError",
    "Verif.C38_raise",
    "Verif.C38_source",
    "Verif.C38_kml_self",
    "Verif.C38_cycle"
   ],
   "note": ""
  },
  {
   "property": "C39",
   "status": "proved",
   "theorems": [
    "Verif.C39_total",
    "Verif.C39_symm",
    "Verif.C39_refl",
    "Verif.C39_default",
    "Verif.C39_point",
    "Verif.C39_line",
    "Verif.C39_ring_line",
    "Verif.C39_classes",
    "Verif.C39_list",
    "Verif.C39_scalars",
    "Verif.C39_read",
    "Verif.C39_altitude_ignored",
    "Verif.C39_not_symm",
    "Verif.C39_not_refl",
    "Verif.C39_empty_line",
    "Verif.C39_not_trans"
   ],
   "note": "symmetry and reflexivity are proved for objects as constructors leave them and without NaN; beyond that they fail (C39_not_symm, C39_not_refl)"
  },
  {
   "property": "C40",
   "status": "proved",
   "theorems": [
    "Verif.C40_object",
    "Verif.C40_read"
   ],
   "note": ""
  },
  {
   "property": "C41",
   "status": "proved",
   "theorems": [
    "Verif.C41_unique",
    "Verif.C41_namespace",
    "Verif.C41_mutation",
    "Verif.C41_unchanged"
   ],
   "note": ""
  },
  {
   "property": "C42",
   "status": "proved",
   "theorems": [
    "Verif.C42_suffix",
    "Verif.C42_written",
    "Verif.C42_failed",
    "Verif.C42_text",
    "Verif.C42_readback"
   ],
   "note": "the XML library and the file system are parameters"
  },
  {
   "property": "C43",
   "status": "proved",
   "theorems": [
    "Verif.C43_usage",
    "Verif.C43_file",
    "Verif.C43_none",
    "Verif.C43_true",
    "Verif.C43_assertion",
    "Verif.C43_index",
    "Verif.C43_parse",
    "Verif.C43_valid",
    "Verif.C43_unvalidated"
   ],
   "note": "the XML library and the schema are parameters"
  },
  {
   "property": "C44",
   "status": "proved",
   "theorems": [
    "Verif.C44_valid",
    "Verif.C44_values",
    "Verif.C44_numbers",
    "Verif.C44_year",
    "Verif.C44_nan",
    "Verif.C44_color",
    "Verif.C44_angle",
    "Verif.C44_id",
    "Verif.C44_document",
    "Verif.C44_control",
    "Verif.C44_styles",
    "Verif.C44_verbose_icon"
   ],
   "note": "C44_valid needs no condition on values and covers content models, attributes, enumerations, booleans and integers; C44_values covers all simple types (Spec/Simple) for objects whose values are in range. Wildcards and the uniqueness of IDs are left out. The excluded cases are shown to be invalid."
  },
  {
   "property": "C45",
   "status": "proved",
   "theorems": [
    "Verif.C45_names",
    "Verif.C45_no_time"
   ],
   "note": "The excluded case is shown."
  },
  {
   "property": "C46",
   "status": "proved",
   "theorems": [
    "Verif.C46_default",
    "Verif.C46_lod_hotSpot"
   ],
   "note": "The exceptions are listed in Spec.otherDefaults."
  },
  {
   "property": "C47",
   "status": "proved",
   "theorems": [
    "Verif.C47_whitespace",
    "Verif.C47_respaced",
    "Verif.C47_when_not"
   ],
   "note": ""
  },
  {
   "property": "C48",
   "status": "proved",
   "theorems": [
    "Verif.C48_lenient",
    "Verif.C48_child",
    "Verif.C48_attribute"
   ],
   "note": ""
  },
  {
   "property": "C49",
   "status": "proved",
   "theorems": [
    "Verif.C49_new",
    "Verif.C49_written",
    "Verif.C49_read",
    "Verif.C49_cycle",
    "Verif.C49_schema_error",
    "Verif.C49_schema",
    "Verif.C49_schema_blank"
   ],
   "note": "verbatim for every class but Schema, whose id is stored without surrounding whitespace"
  },
  {
   "property": "C50",
   "status": "proved",
   "theorems": [
    "Verif.C50_icon",
    "Verif.C50_href"
   ],
   "note": ""
  },
  {
   "property": "C51",
   "status": "proved",
   "theorems": [
    "Verif.C51_stamp",
    "Verif.C51_span",
    "Verif.C51_none"
   ],
   "note": ""
  },
  {
   "property": "C52",
   "status": "proved",
   "theorems": [
    "Verif.C52_point",
    "Verif.C52_none",
    "Verif.C52_model"
   ],
   "note": ""
  },
  {
   "property": "C53",
   "status": "proved",
   "theorems": [
    "Verif.C53_bool",
    "Verif.C53_defined",
    "Verif.C53_raises"
   ],
   "note": ""
  },
  {
   "property": "C54",
   "status": "proved",
   "theorems": [
    "Verif.C54_kinds",
    "Verif.C54_succeeds"
   ],
   "note": ""
  },
  {
   "property": "C55",
   "status": "proved",
   "theorems": [
    "Verif.C55_elements"
   ],
   "note": ""
  },
  {
   "property": "C56",
   "status": "proved",
   "theorems": [
    "Verif.C56_enum"
   ],
   "note": ""
  },
  {
   "property": "C57",
   "status": "proved",
   "theorems": [
    "Verif.C57_evaluates",
    "Verif.C57_equal",
    "Verif.C57_identical",
    "Verif.C57_stable",
    "Verif.C57_geometry",
    "Verif.C57_read",
    "Verif.C57_extras",
    "Verif.C57_extras_identical",
    "Verif.C57_extras_geometry",
    "Verif.C57_ring_lost",
    "Verif.C57_coordinates_lost",
    "Verif.C57_schema"
   ],
   "note": "repr is modelled as the expression the text stands for; NaN and schemas with a blank id are excluded, the latter shown to fail."
  },
  {
   "property": "C58",
   "status": "proved",
   "theorems": [
    "Verif.C58_read",
    "Verif.C58_write",
    "Verif.C58_content",
    "Verif.C58_kml",
    "Verif.C58_version"
   ],
   "note": "A renaming keeps different namespaces different and keeps 'no namespace'."
  },
  {
   "property": "C59",
   "status": "proved",
   "theorems": [
    "Verif.C59_write",
    "Verif.C59_cycle",
    "Verif.C59_roundtrip",
    "Verif.C59_element"
   ],
   "note": "What an XML parser does with xmlns is specified in Spec.resolve."
  },
  {
   "property": "C60",
   "status": "proved",
   "theorems": [
    "Verif.C60_reopen",
    "Verif.C60_same",
    "Verif.C60_verbosity",
    "Verif.C60_kml",
    "Verif.C60_blank_schema_id",
    "Verif.C60_year_999",
    "Verif.C60_four_components",
    "Verif.C60_track_namespace"
   ],
   "note": "What is lost is specified in Spec.prune; the excluded cases are shown not to come back."
  },
  {
   "property": "C61",
   "status": "proved",
   "theorems": [
    "Verif.C61_kept",
    "Verif.C61_from_string",
    "Verif.C61_unsupported",
    "Verif.C61_unsupported_attribute",
    "Verif.C61_screen_overlay",
    "Verif.C61_pair",
    "Verif.C61_author",
    "Verif.C61_lod"
   ],
   "note": "Which attribute holds what, and what is unsupported, is specified in Spec/Content; the rows of a track are C32."
  },
  {
   "property": "C62",
   "status": "proved",
   "theorems": [
    "Verif.C62_forget",
    "Verif.C62_same",
    "Verif.C62_scalar",
    "Verif.C62_object",
    "Verif.C62_list",
    "Verif.C62_writes",
    "Verif.C62_declared_reads",
    "Verif.C62_declared_writes",
    "Verif.C62_cycle",
    "Verif.C62_roundtrip",
    "Verif.C62_readable",
    "Verif.C62_cascade_reads",
    "Verif.C62_cascade_roundtrip",
    "Verif.C62_kml",
    "Verif.C62_overlay",
    "Verif.C62_no_kwargs",
    "Verif.C62_foreign"
   ],
   "note": "Theorems about every library; fresh_fastkml, fastkml_sound and cascade_sound show that fastkml and the documented example meet the conditions. The cases that fail are shown."
  },
  {
   "property": "C63",
   "status": "proved",
   "theorems": [
    "Verif.C63_accepts",
    "Verif.C63_valid",
    "Verif.C63_kml",
    "Verif.C63_values",
    "Verif.C63_values_kml",
    "Verif.C63_schema_rejected",
    "Verif.C63_track_rejected",
    "Verif.C63_lod_rejected",
    "Verif.C63_field_rejected",
    "Verif.C63_length_rejected"
   ],
   "note": "What validity does not settle (times, coordinates, rows of tracks; in C63_valid also numbers) is a condition, Spec.Fit; C63_values assumes that float() reads all doubles of XML Schema; the valid documents that are rejected are shown."
  },
  {
   "property": "C64",
   "status": "proved",
   "theorems": [
    "Verif.C64_typed",
    "Verif.C64_writes",
    "Verif.C64_cycle",
    "Verif.C64_make",
    "Verif.C64_read",
    "Verif.C64_assign",
    "Verif.C64_append",
    "Verif.C64_append_self"
   ],
   "note": "Programs over a store of objects and lists (Store.lean); which programs a type checker accepts is specified in Spec/Store."
  },
  {
   "property": "C65",
   "status": "proved",
   "theorems": [
    "Verif.C65_new",
    "Verif.C65_assign",
    "Verif.C65_change",
    "Verif.C65_copies",
    "Verif.C65_callers_lists",
    "Verif.C65_append",
    "Verif.C65_coordinates_alias",
    "Verif.C65_assigned_shared"
   ],
   "note": "The two ways in which lists are shared are shown."
  },
  {
   "property": "C66",
   "status": "proved",
   "theorems": [
    "Verif.C66_read",
    "Verif.C66_written",
    "Verif.C66_roundtrip"
   ],
   "note": "C14_scalar says where the text comes from. The digits of all scripts are those of Unicode 15."
  },
  {
   "property": "C67",
   "status": "proved",
   "theorems": [
    "Verif.C67_written",
    "Verif.C67_cycle",
    "Verif.C67_roundtrip",
    "Verif.C67_file",
    "Verif.C67_reopen",
    "Verif.C67_reopen_file",
    "Verif.C67_bare"
   ],
   "note": "The law about the XML library is Spec.Faithful; XmlInst.lean is a printer and parser that meet it. Texts with carriage returns or control characters and .kmz files (C42) are excluded."
  },
  {
   "property": "C68",
   "status": "proved",
   "theorems": [
    "Verif.C68_nested",
    "Verif.C68_terse_of_verbose",
    "Verif.C68_terse_again",
    "Verif.C68_verbose_again",
    "Verif.C68_network_link_control",
    "Verif.C68_terse_shrinks"
   ],
   "note": "The two excluded cases are shown: the second verbose document of a NetworkLinkControl has 0.0 for 0, and styles with nothing but defaults vanish in the second terse document."
  },
  {
   "property": "C69",
   "status": "proved",
   "theorems": [
    "Verif.C69_one_to_one",
    "Verif.C69_current",
    "Verif.C69_others",
    "Verif.C69_unsupported",
    "Verif.C69_register",
    "Verif.C69_refused",
    "Verif.C69_defaults"
   ],
   "note": "Spec.LawfulLibs: the XML libraries accept kml, atom and gx."
  },
  {
   "property": "C70",
   "status": "proved",
   "theorems": [
    "Verif.C70_usable",
    "Verif.C70_read",
    "Verif.C70_faithful",
    "Verif.C70_names",
    "Verif.C70_refused",
    "Verif.C70_declares",
    "Verif.C70_roundtrip",
    "Verif.C70_history",
    "Verif.C70_unclosed",
    "Verif.C70_switch",
    "Verif.C70_bad_prefix",
    "Verif.C70_two_xmlns",
    "Verif.C70_carriage_return"
   ],
   "note": "The writer is modelled after CPython's source; expat is replaced by a parser for the part of XML that is written. C70_faithful discharges the hypothesis of C67 for this library."
  },
  {
   "property": "C71",
   "status": "proved",
   "theorems": [
    "Verif.C71_etree",
    "Verif.C71_libraries",
    "Verif.C71_same",
    "Verif.C71_lxml",
    "Verif.C71_file",
    "Verif.C71_value_lost",
    "Verif.C71_points_lost",
    "Verif.C71_when"
   ],
   "note": "How the libraries find element.text is modelled after their documented behaviour. The last three theorems are disagreements: with lxml a value after a comment is lost without an error."
  },
  {
   "property": "C72",
   "status": "proved",
   "theorems": [
    "Verif.C72_read",
    "Verif.C72_strings",
    "Verif.C72_characters",
    "Verif.C72_legal",
    "Verif.C72_lasting",
    "Verif.C72_reopen",
    "Verif.C72_reopen_file",
    "Verif.C72_lossless",
    "Verif.C72_lossless_file"
   ],
   "note": "What an object may hold is specified in Spec/Said; the conditions on documents are LegalDoc, Standard and LastingDoc."
  },
  {
   "property": "C73",
   "status": "proved",
   "theorems": [
    "Verif.C73_string",
    "Verif.C73_file"
   ],
   "note": "Combines C63 and C72; assumes that float() reads all doubles of XML Schema."
  },
  {
   "property": "C74",
   "status": "proved",
   "theorems": [
    "Verif.C74_saved",
    "Verif.C74_kml",
    "Verif.C74_opened",
    "Verif.C74_document",
    "Verif.C74_control"
   ],
   "note": "Assumes that str() of a number read from a decimal number between two integers is between these (KeepsRanges); C74_document and C74_control are the excluded cases."
  },
  {
   "property": "C75",
   "status": "proved",
   "theorems": [
    "Verif.C75_iff",
    "Verif.C75_writes",
    "Verif.C75_refused",
    "Verif.C75_read",
    "Verif.C75_legal",
    "Verif.C75_roundtrip",
    "Verif.C75_file",
    "Verif.C75_form_feed"
   ],
   "note": "Which characters lxml refuses is taken from its source, which is not in /repo; the check is made on the complete element."
  },
  {
   "property": "C76",
   "status": "proved",
   "theorems": [
    "Verif.C76_read",
    "Verif.C76_write",
    "Verif.C76_one",
    "Verif.C76_schema",
    "Verif.C76_covers"
   ],
   "note": "The notation is specified in Spec/Moments; assumes that arrow.get reads the points in time of XML Schema (ReadsTimes)."
  },
  {
   "property": "C77",
   "status": "proved",
   "theorems": [
    "Verif.C77_opened",
    "Verif.C77_string",
    "Verif.C77_file"
   ],
   "note": "The conditions on the text are Spec.Ordinary; combines C63, C73, C74 and C76."
  },
  {
   "property": "C78",
   "status": "proved",
   "theorems": [
    "Verif.C78_objects",
    "Verif.C78_ids",
    "Verif.C78_written",
    "Verif.C78_saved",
    "Verif.C78_unique",
    "Verif.C78_find",
    "Verif.C78_style"
   ],
   "note": "Elements and objects with their identifiers are listed by Spec/Labels; all counts follow from one bound for any weight of names and identifiers."
  },
  {
   "property": "C79",
   "status": "proved",
   "theorems": [
    "Verif.C79_names",
    "Verif.C79_identified",
    "Verif.C79_size",
    "Verif.C79_when",
    "Verif.C79_angle",
    "Verif.C79_total",
    "Verif.C79_angles",
    "Verif.C79_times"
   ],
   "note": "The elements are listed by Spec/Labels; the last two theorems are the exceptions: tracks without angles or with too few times."
  },
  {
   "property": "C80",
   "status": "proved",
   "theorems": [
    "Verif.C80_complete",
    "Verif.C80_others",
    "Verif.C80_failed",
    "Verif.C80_target",
    "Verif.C80_kmz",
    "Verif.C80_retry",
    "Verif.C80_schedule",
    "Verif.C80_schedule_crash",
    "Verif.C80_detected",
    "Verif.C80_lost",
    "Verif.C80_recovered"
   ],
   "note": "The model of the effects of write is in Crash.lean; how buffers and the system split the text is a parameter (Io). C80_lost and C80_recovered are the two limits."
  },
  {
   "property": "C81",
   "status": "proved",
   "theorems": [
    "Verif.C81_origin",
    "Verif.C81_transparent",
    "Verif.C81_asks",
    "Verif.C81_keys",
    "Verif.C81_loaded",
    "Verif.C81_stale"
   ],
   "note": "Cache.lean models functools.lru_cache(maxsize=16) on get_schema_parser; Spec/Recent says which schemas are remembered. C81_stale is the limit."
  },
  {
   "property": "C82",
   "status": "proved",
   "theorems": [
    "Verif.C82_result",
    "Verif.C82_quiet",
    "Verif.C82_strict",
    "Verif.C82_silent",
    "Verif.C82_dropped",
    "Verif.C82_rows",
    "Verif.C82_coordinates",
    "Verif.C82_members",
    "Verif.C82_child",
    "Verif.C82_about",
    "Verif.C82_boolean",
    "Verif.C82_twice"
   ],
   "note": "Log.lean is the reading code once more, with its calls of the logger. C82_boolean and C82_twice are the limits."
  },
  {
   "property": "C83",
   "status": "proved",
   "theorems": [
    "Verif.C83_times",
    "Verif.C83_minutes",
    "Verif.C83_seconds",
    "Verif.C83_monrovia"
   ],
   "note": "Spec/Simple gives the texts of dateTimeType. C83_monrovia is a concrete time that does not fit."
  }
 ]
}
