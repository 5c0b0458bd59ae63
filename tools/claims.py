claim("C05", "proved", "C05_conservative C05_fromElement")
claim("C18", "proved", "C18_strict C18_lenient C18_read_strict C18_roundtrip")
claim("C19", "proved", "C19_distinct C19_strict C19_lenient C19_letters C19_roundtrip")
claim("C20", "proved", "C20_text C20_roundtrip C20_naive C20_small_year")
claim("C21", "proved", "C21_pattern C21_date C21_yearMonth C21_year C21_arrow")
claim("C22", "proved", "C22_normal C22_default C22_consistent C22_idempotent C22_valid C22_eq_equiv C22_eq_iff")
claim("C23", "proved", "C23_white C23_clean C23_idempotent C23_constructor")
claim("C24", "proved", "C24_roundtrip C24_precision")
claim("C25", "proved", "C25_spacing C25_count")
claim("C26", "proved", "C26_write")
claim("C06", "proved", "C06_lenient C06_fromElement")
claim("C07", "proved", "C07_exceptions C07_kinds C07_valueError_lenient C07_typeError_lenient")
claim("C08", "proved", "C08_strict")
claim("C09", "proved", "C09_content C09_unknown_child C09_unknown_attribute C09_order")
claim("C10", "proved", "C10_first C10_names")
claim("C11", "proved", "C11_list C11_classes C11_not_document_order")
claim("C14", "proved", "C14_scalar C14_object C14_fallback C14_lists_lost")
claim("C47", "proved", "C47_whitespace C47_respaced C47_when_not")
claim("C48", "proved", "C48_lenient C48_child C48_attribute")
claim("C03", "proved", "C03_terse C03_omitted C03_read")
claim("C12", "proved", "C12_order C12_assignment C13_fastkml")
claim("C13", "proved", "C13_get C13_unrelated C13_inserts C13_fastkml")
claim("C16", "proved", "C16_precision C16_tags")
claim("C54", "proved", "C54_kinds C54_succeeds")
claim("C01", "proved", "C01_roundtrip C01_default")
claim("C02", "proved", "C02_cycle C02_readable C02_track_angles C02_track_times C02_track_no_times C02_foreign_member")
claim("C04", "proved", "C04_verbose C04_read")
claim("C15", "proved", "C15_object C15_list C15_stable C15_not_stable")
claim("C17", "proved", "C17_coordinates C17_track C17_idem C17_again C17_read C17_cycle", "from the laws of LawfulExact: float formatting and parsing are correctly rounded")
claim("C27", "proved", "C27_convert C27_same C27_empty C27_attributes C27_members")
claim("C28", "proved", "C28_none C28_points C28_lines C28_polygons C28_collection C28_multi")
claim("C29", "proved", "C29_coordinates C29_boundary C29_polygon C29_multi C29_placemark C29_placemark_geometry C29_track")
claim("C30", "proved", "C30_ring C30_boundary C30_polygon")
claim("C31", "proved", "C31_holes C31_normal C31_none")
claim("C32", "proved", "C32_rows C32_same C32_roundtrip")
claim("C33", "proved", "C33_mispaired C33_rows C33_paired C33_exact", "the intended pairing is false in lenient mode (C33_mispaired); C33_exact says exactly when it holds")
claim("C34", "proved", "C34_tracks C34_geometry C34_track")
claim("C35", "proved", "C35_exact C35_order C35_children C35_lists C35_find C35_first")
claim("C36", "proved", "C36_found C36_none C36_first C36_fragment C36_only_fragment C36_no_hash C36_read C36_url C36_url_plain C36_url_local C36_url_raises C36_url_host C36_url_bracket", "urlsplit is modelled after CPython's source; the check of IP addresses and NFKC are parameters. C36_url_raises says for every url whether it is refused; C36_url_bracket is a url that is refused although only its fragment is used.")
claim("C37", "proved", "C37_normal C37_highlight C37_none")
claim("C39", "proved", "C39_total C39_symm C39_refl C39_default C39_point C39_line C39_ring_line C39_classes C39_list C39_scalars C39_read C39_altitude_ignored C39_not_symm C39_not_refl C39_empty_line C39_not_trans", "symmetry and reflexivity are proved for objects as constructors leave them and without NaN; beyond that they fail (C39_not_symm, C39_not_refl)")
claim("C38", "proved", "C38_history C38_create C38_list C38_self C38_valueError C38_raise C38_source C38_kml_self C38_cycle")
claim("C40", "proved", "C40_object C40_read")
claim("C41", "proved", "C41_unique C41_namespace C41_mutation C41_unchanged")
claim("C42", "proved", "C42_suffix C42_written C42_failed C42_text C42_readback", "the XML library and the file system are parameters")
claim("C43", "proved", "C43_usage C43_file C43_none C43_true C43_assertion C43_index C43_parse C43_valid C43_unvalidated", "the XML library and the schema are parameters")
claim("C49", "proved", "C49_new C49_written C49_read C49_cycle C49_schema_error C49_schema C49_schema_blank", "verbatim for every class but Schema, whose id is stored without surrounding whitespace")
claim("C50", "proved", "C50_icon C50_href")
claim("C51", "proved", "C51_stamp C51_span C51_none")
claim("C52", "proved", "C52_point C52_none C52_model")
claim("C53", "proved", "C53_bool C53_defined C53_raises")
claim("C55", "proved", "C55_elements")
claim("C44", "proved", "C44_valid C44_values C44_numbers C44_year C44_nan C44_color C44_angle C44_id C44_document C44_control C44_styles C44_verbose_icon",
      "C44_valid needs no condition on values and covers content models, attributes, enumerations, booleans and integers; C44_values covers all simple types (Spec/Simple) for objects whose values are in range. Wildcards and the uniqueness of IDs are left out. The excluded cases are shown to be invalid.")
claim("C45", "proved", "C45_names C45_no_time", "The excluded case is shown.")
claim("C46", "proved", "C46_default C46_lod_hotSpot", "The exceptions are listed in Spec.otherDefaults.")
claim("C56", "proved", "C56_enum", "")
claim("C57", "proved", "C57_evaluates C57_equal C57_identical C57_stable C57_geometry C57_read C57_extras C57_extras_identical C57_extras_geometry C57_ring_lost C57_coordinates_lost C57_schema",
      "repr is modelled as the expression the text stands for; NaN and schemas with a blank id are excluded, the latter shown to fail.")
claim("C58", "proved", "C58_read C58_write C58_content C58_kml C58_version",
      "A renaming keeps different namespaces different and keeps 'no namespace'.")
claim("C59", "proved", "C59_write C59_cycle C59_roundtrip C59_element",
      "What an XML parser does with xmlns is specified in Spec.resolve.")
claim("C60", "proved", "C60_reopen C60_same C60_verbosity C60_kml C60_blank_schema_id C60_year_999 C60_four_components C60_track_namespace",
      "What is lost is specified in Spec.prune; the excluded cases are shown not to come back.")
claim("C61", "proved", "C61_kept C61_from_string C61_unsupported C61_unsupported_attribute C61_screen_overlay C61_pair C61_author C61_lod",
      "Which attribute holds what, and what is unsupported, is specified in Spec/Content; the rows of a track are C32.")
claim("C62", "proved", "C62_forget C62_same C62_scalar C62_object C62_list C62_writes C62_declared_reads C62_declared_writes C62_cycle C62_roundtrip C62_readable C62_cascade_reads C62_cascade_roundtrip C62_kml C62_overlay C62_no_kwargs C62_foreign",
      "Theorems about every library; fresh_fastkml, fastkml_sound and cascade_sound show that fastkml and the documented example meet the conditions. The cases that fail are shown.")
claim("C63", "proved", "C63_accepts C63_valid C63_kml C63_values C63_values_kml C63_schema_rejected C63_track_rejected C63_lod_rejected C63_field_rejected C63_length_rejected",
      "What validity does not settle (times, coordinates, rows of tracks; in C63_valid also numbers) is a condition, Spec.Fit; C63_values assumes that float() reads all doubles of XML Schema; the valid documents that are rejected are shown.")
claim("C64", "proved", "C64_typed C64_writes C64_cycle C64_make C64_read C64_assign C64_append C64_append_self",
      "Programs over a store of objects and lists (Store.lean); which programs a type checker accepts is specified in Spec/Store.")
claim("C65", "proved", "C65_new C65_assign C65_change C65_copies C65_callers_lists C65_append C65_coordinates_alias C65_assigned_shared",
      "The two ways in which lists are shared are shown.")
claim("C66", "proved", "C66_read C66_written C66_roundtrip",
      "C14_scalar says where the text comes from. The digits of all scripts are those of Unicode 15.")
claim("C67", "proved", "C67_written C67_cycle C67_roundtrip C67_file C67_reopen C67_reopen_file C67_bare",
      "The law about the XML library is Spec.Faithful; XmlInst.lean is a printer and parser that meet it. Texts with carriage returns or control characters and .kmz files (C42) are excluded.")
claim("C68", "proved", "C68_nested C68_terse_of_verbose C68_terse_again C68_verbose_again C68_network_link_control C68_terse_shrinks",
      "The two excluded cases are shown: the second verbose document of a NetworkLinkControl has 0.0 for 0, and styles with nothing but defaults vanish in the second terse document.")
claim("C69", "proved", "C69_one_to_one C69_current C69_others C69_unsupported C69_register C69_refused C69_defaults",
      "Spec.LawfulLibs: the XML libraries accept kml, atom and gx.")
claim("C70", "proved", "C70_usable C70_read C70_faithful C70_names C70_refused C70_declares C70_roundtrip C70_history C70_unclosed C70_switch C70_bad_prefix C70_two_xmlns C70_carriage_return",
      "The writer is modelled after CPython's source; expat is replaced by a parser for the part of XML that is written. C70_faithful discharges the hypothesis of C67 for this library.")
claim("C71", "proved", "C71_etree C71_libraries C71_same C71_lxml C71_file C71_value_lost C71_points_lost C71_when",
      "How the libraries find element.text is modelled after their documented behaviour. The last three theorems are disagreements: with lxml a value after a comment is lost without an error.")
claim("C72", "proved", "C72_read C72_strings C72_characters C72_legal C72_lasting C72_reopen C72_reopen_file C72_lossless C72_lossless_file",
      "What an object may hold is specified in Spec/Said; the conditions on documents are LegalDoc, Standard and LastingDoc.")
claim("C73", "proved", "C73_string C73_file",
      "Combines C63 and C72; assumes that float() reads all doubles of XML Schema.")
claim("C74", "proved", "C74_saved C74_kml C74_opened C74_document C74_control",
      "Assumes that str() of a number read from a decimal number between two integers is between these (KeepsRanges); C74_document and C74_control are the excluded cases.")
claim("C75", "proved", "C75_iff C75_writes C75_refused C75_read C75_legal C75_roundtrip C75_file C75_form_feed",
      "Which characters lxml refuses is taken from its source, which is not in /repo; the check is made on the complete element.")
claim("C76", "proved", "C76_read C76_write C76_one C76_schema C76_covers",
      "The notation is specified in Spec/Moments; assumes that arrow.get reads the points in time of XML Schema (ReadsTimes).")
claim("C77", "proved", "C77_opened C77_string C77_file",
      "The conditions on the text are Spec.Ordinary; combines C63, C73, C74 and C76.")
claim("C78", "proved", "C78_objects C78_ids C78_written C78_saved C78_unique C78_find C78_style",
      "Elements and objects with their identifiers are listed by Spec/Labels; all counts follow from one bound for any weight of names and identifiers.")
claim("C79", "proved", "C79_names C79_identified C79_size C79_when C79_angle C79_total C79_angles C79_times",
      "The elements are listed by Spec/Labels; the last two theorems are the exceptions: tracks without angles or with too few times.")
claim("C80", "proved", "C80_complete C80_others C80_failed C80_target C80_kmz C80_retry C80_schedule C80_schedule_crash C80_detected C80_lost C80_recovered",
      "The model of the effects of write is in Crash.lean; how buffers and the system split the text is a parameter (Io). C80_lost and C80_recovered are the two limits.")
claim("C81", "proved", "C81_origin C81_transparent C81_asks C81_keys C81_loaded C81_stale",
      "Cache.lean models functools.lru_cache(maxsize=16) on get_schema_parser; Spec/Recent says which schemas are remembered. C81_stale is the limit.")
claim("C82", "proved", "C82_result C82_quiet C82_strict C82_silent C82_dropped C82_rows C82_coordinates C82_members C82_child C82_about C82_boolean C82_twice",
      "Log.lean is the reading code once more, with its calls of the logger. C82_boolean and C82_twice are the limits.")
claim("C83", "proved", "C83_times C83_minutes C83_seconds C83_monrovia",
      "Spec/Simple gives the texts of dateTimeType. C83_monrovia is a concrete time that does not fit.")
