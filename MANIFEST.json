{"claims": [
  {"property": "C01", "status": "proved", "theorems": ["Verif.C01_methods"], "note": ""},
  {"property": "C02", "status": "proved", "theorems": ["Verif.C02_decomposition_exists_unique", "Verif.C02_cleaned_path", "Verif.C02_no_patterns"], "note": ""},
  {"property": "C03", "status": "proved", "theorems": ["Verif.C03_idempotent"], "note": ""},
  {"property": "C04", "status": "proved", "theorems": ["Verif.C04_names"], "note": ""},
  {"property": "C05", "status": "proved", "theorems": ["Verif.C05_validation_exact", "Verif.C05_validation_sound", "Verif.C05_any_locations", "Verif.C05_ambiguous_without_standard_locations", "Verif.C05_undefined_reported"], "note": "C05_validation_exact for the four standard locations, C05_any_locations for any; a witness shows that the former fails without standard locations."},
  {"property": "C06", "status": "proved", "theorems": ["Verif.C06_order_independent", "Verif.C06_reported_once"], "note": ""},
  {"property": "C07", "status": "proved", "theorems": ["Verif.V30.C07_add_success", "Verif.V30.C07_add_succeeds_iff", "Verif.V31.C07_add_success", "Verif.V31.C07_add_succeeds_iff"], "note": ""},
  {"property": "C08", "status": "proved", "theorems": ["Verif.V30.C08_add_failure", "Verif.V31.C08_add_failure_exact", "Verif.V31.C08_add_failure_clobbers"], "note": ""},
  {"property": "C09", "status": "proved", "theorems": ["Verif.V30.C09_duplicate_exact", "Verif.V30.C09_overwrite_with_pattern", "Verif.V31.C09_duplicate_exact", "Verif.V31.C09_overwrite_with_pattern"], "note": ""},
  {"property": "C10", "status": "proved", "theorems": ["Verif.V30.C10_consistent_documents", "Verif.V31.C10_consistent_documents", "Verif.V31.C10_stored_iff", "Verif.V31.C10_no_patterns"], "note": ""},
  {"property": "C100", "status": "proved", "theorems": ["Verif.C100_order", "Verif.C100_ascending", "Verif.C100_unique", "Verif.C100_says", "Verif.C100_unwritten", "Verif.C100_keys", "Verif.C100_text31", "Verif.C100_loaded31", "Verif.C100_built31", "Verif.C100_loaded30", "Verif.C100_text30", "Verif.C100_built30"], "note": "Text.save is Text.marshal after sorting every map, at any depth, as encoding/json does. C99 is carried over to it. In 3.0 the raw copies of parameters (SchemaXORContent) with sorted maps read as the sorted schema or content if the file has one spelling of each field name (ClearAs, Lemmas/SortedRead); every text that was written for a built document has (C75). Numbers of built documents are assumed to be printed as float64 are."},
  {"property": "C101", "status": "proved", "theorems": ["Verif.Codec.C101_same_name", "Verif.Codec.C101_field", "Verif.Codec.C101_read30", "Verif.Codec.C101_read31", "Verif.Codec.C101_last_scalar", "Verif.Codec.C101_last", "Verif.Codec.C101_case", "Verif.Codec.C101_merge_case"], "note": "C101_read30/31 for the structs of the entities, in terms of reading over what a field holds (decodeInto); which spellings 3.0 refuses before that is C36."},
  {"property": "C102", "status": "proved", "theorems": ["Verif.Codec.C102_new30", "Verif.Codec.C102_new31", "Verif.Codec.C102_again30", "Verif.Codec.C102_again31", "Verif.Codec.C102_written30", "Verif.Codec.C102_written31", "Verif.Codec.C102_accepted30", "Verif.Codec.C102_accepted31", "Verif.Codec.C102_accepted_case", "Verif.Codec.C102_parts30", "Verif.Codec.C102_parts31", "Verif.Codec.C102_kept", "Verif.Codec.C102_paths30", "Verif.Codec.C102_paths31", "Verif.Codec.C102_case30", "Verif.Codec.C102_case31", "Verif.Codec.C102_merge_case", "Verif.Codec.C102_repeated_case"], "note": "Values are trees: aliasing between parts of the value, and slice elements beyond the length, are not modelled."},
  {"property": "C103", "status": "proved", "theorems": ["Verif.V30.C103_overlay", "Verif.V30.C103_bool", "Verif.V30.C103_reference", "Verif.V30.C103_panics", "Verif.V30.C103_hidden", "Verif.V30.C103_new", "Verif.V30.C103_again", "Verif.V30.C103_case"], "note": "Extra properties of the JSON Schema are a Go map (no repeated names); sharing of slices and maps with the JSON Schema is not modelled."},
  {"property": "C104", "status": "proved", "theorems": ["Verif.C104_form_name", "Verif.C104_safe", "Verif.C104_two_components", "Verif.C104_distinct", "Verif.C104_collision", "Verif.C104_components", "Verif.C104_components_json", "Verif.C104_case", "Verif.C104_components_case"], "note": "InterceptDefName of jsonschema-go is taken to run the later callback on the result of the earlier one."},
  {"property": "C105", "status": "proved", "theorems": ["Verif.C105_file", "Verif.C105_not_file", "Verif.C105_detected", "Verif.C105_files", "Verif.C105_other_nulls", "Verif.C105_published30", "Verif.C105_removes_case", "Verif.C105_case"], "note": "AddType and RemoveType are methods of jsonschema-go: AddType is modelled, RemoveType is any function that removes the type and keeps the others."},
  {"property": "C106", "status": "proved", "theorems": ["Verif.Rest30.C106_rest30", "Verif.Rest30.C106_case", "Verif.Rest30.C106_no_response", "Verif.Rest30.C106_repeated_reference"], "note": "Input in order as in C83; functions given to SetupOperation must leave a response. Keywords that concern only what the JSON Schema of a type says (bounds, formats, uniqueness of required names) are not covered."},
  {"property": "C107", "status": "proved", "theorems": ["Verif.C107_followed30", "Verif.C107_followed31", "Verif.C107_needs30", "Verif.C107_resolves31", "Verif.C107_case30", "Verif.C107_case31", "Verif.C107_resolves_case", "Verif.C107_failed"], "note": "That a reflection reports what it refers to is the contract of jsonschema-go and a hypothesis (Complete). For 3.1 the conversion to a map is an oracle that makes no references of its own. Operations are in order as in C83 and C84."},
  {"property": "C108", "status": "proved", "theorems": ["Verif.C108_layout", "Verif.C108_rejects", "Verif.C108_accepted30", "Verif.C108_accepted31", "Verif.C108_text30", "Verif.C108_text31", "Verif.C108_paths30", "Verif.C108_paths31", "Verif.C108_yaml", "Verif.C108_yaml30", "Verif.C108_yaml31", "Verif.C108_yaml_rejects", "Verif.C108_yaml_accepted30", "Verif.C108_yaml_accepted31", "Verif.C108_case30", "Verif.C108_case31", "Verif.C108_yaml_case30", "Verif.C108_yaml_case31", "Verif.C108_merge_case"], "note": "What a failing call leaves behind is not modelled. yaml.v2 is an oracle that keeps what it writes (as in C96)."},
  {"property": "C11", "status": "proved", "theorems": ["Verif.V30.C11_setup_atomic", "Verif.V30.C11_setup_effect", "Verif.V30.C11_setup_first_error", "Verif.V31.C11_setup_effect", "Verif.V31.C11_setup_failure", "Verif.V31.C11_setup_first_error", "Verif.V31.C11_setup_not_atomic"], "note": "3.0: for setup functions that assign fields; for writes into a map shared with the stored operation see C88."},
  {"property": "C12", "status": "proved", "theorems": ["Verif.V31.C12_webhooks"], "note": ""},
  {"property": "C13", "status": "proved", "theorems": ["Verif.C13_reflected_unique", "Verif.V30.C13_stored_unique", "Verif.V31.C13_stored_unique"], "note": ""},
  {"property": "C14", "status": "proved", "theorems": ["Verif.V30.C14_path_fields", "Verif.V31.C14_path_fields", "Verif.V30.C14_path_parameters", "Verif.V31.C14_path_parameters"], "note": "For contexts made by NewOperationContext. C14_path_parameters: if no field is moved, every path parameter of the operation is required and every placeholder has one."},
  {"property": "C15", "status": "proved", "theorems": ["Verif.C15_append_only", "Verif.C15_fresh", "Verif.C15_collision"], "note": ""},
  {"property": "C16", "status": "proved", "theorems": ["Verif.C16_no_body", "Verif.C16_body_iff", "Verif.C16_raw_body_for_get"], "note": ""},
  {"property": "C17", "status": "proved", "theorems": ["Verif.C17_head_no_content"], "note": "For customise functions that do not add content."},
  {"property": "C18", "status": "proved", "theorems": ["Verif.C18_keys_distinct", "Verif.C18_valid_keys", "Verif.C18_three_digits", "Verif.C18_places", "Verif.C18_stored", "Verif.C18_other_places"], "note": ""},
  {"property": "C19", "status": "proved", "theorems": ["Verif.C19_request_kept", "Verif.C19_request_untouched", "Verif.C19_response_kept", "Verif.C19_response_untouched"], "note": ""},
  {"property": "C20", "status": "proved", "theorems": ["Verif.V30.C20_schemas_kept", "Verif.V31.C20_schemas_kept", "Verif.V31.C20_schemas_kept_all"], "note": ""},
  {"property": "C21", "status": "proved", "theorems": ["Verif.V30.C21_failure", "Verif.V31.C21_failure", "Verif.V31.C21_webhook_failure"], "note": "For contexts made by NewOperationContext, the only way to get one."},
  {"property": "C22", "status": "proved", "theorems": ["Verif.V30.C22_twice", "Verif.V30.C22_no_context", "Verif.V30.C22_history", "Verif.V31.C22_twice", "Verif.V31.C22_no_context", "Verif.V31.C22_history", "Verif.V31.C22_history_all"], "note": ""},
  {"property": "C23", "status": "proved", "theorems": ["Verif.C23_response_description", "Verif.C23_described", "Verif.C23_response_customize", "Verif.C23_request_description"], "note": ""},
  {"property": "C24", "status": "proved", "theorems": ["Verif.C24_form_content_type", "Verif.C24_other_untouched"], "note": ""},
  {"property": "C25", "status": "proved", "theorems": ["Verif.C25_forbidden_iff", "Verif.C25_context"], "note": ""},
  {"property": "C26", "status": "proved", "theorems": ["Verif.V30.C26_round_trip", "Verif.V30.C26_components"], "note": ""},
  {"property": "C27", "status": "proved", "theorems": ["Verif.V30.C27_terminates", "Verif.V30.C27_no_components", "Verif.V31.C27_terminates", "Verif.V31.C27_exact", "Verif.V31.C27_no_components"], "note": "Both versions. Without component schemas ToJSONSchema panics exactly if the schema contains a local reference (C27_no_components). In 3.1 it also panics exactly if a needed component does not decode (C27_exact)."},
  {"property": "C28", "status": "proved", "theorems": ["Verif.V30.C28_self_contained"], "note": ""},
  {"property": "C29", "status": "proved", "theorems": ["Verif.V30.C29_order_independent", "Verif.V31.C29_order_independent"], "note": ""},
  {"property": "C30", "status": "proved", "theorems": ["Verif.V30.C30_only_needed", "Verif.V31.C30_only_needed"], "note": ""},
  {"property": "C31", "status": "proved", "theorems": ["Verif.V30.C31_to_keeps", "Verif.V30.C31_from_drops", "Verif.V30.C31_from_accepts_all"], "note": "The property includes that the code breaks it in one direction: the other direction is proved to keep the bound."},
  {"property": "C32", "status": "proved", "theorems": ["Verif.V30.C32_booleans"], "note": ""},
  {"property": "C33", "status": "proved", "theorems": ["Verif.V31.C33_collected", "Verif.V31.C33_self_contained", "Verif.V31.C33_other_keywords_dangle", "Verif.V31.C33_beside_ref_dangles"], "note": ""},
  {"property": "C34", "status": "proved", "theorems": ["Verif.C34_objects", "Verif.C34_part_fails", "Verif.C34_single", "Verif.C34_mixed", "Verif.C34_two_others", "Verif.C34_no_panic", "Verif.C34_tree"], "note": "On the texts of JSON values; the writer of texts (`Spec.text`) is the specification of json.Marshal."},
  {"property": "C35", "status": "proved", "theorems": ["Verif.C35_roundtrip30", "Verif.C35_roundtrip31", "Verif.C35_case30", "Verif.C35_case31"], "note": "Writable (Spec/RoundTrip) says which values are well-formed, Same what may differ after reading; both are independent of the codec's algorithm except that fields, patterns and alternatives come from the extracted tables, and that a 3.0 parameter's SchemaXORContent must hold the JSON of its schema. Excluded: 3.1 examples outside references (C67), references to links, path items, described responses (C68), number literals that reading changes."},
  {"property": "C36", "status": "proved", "theorems": ["Verif.C36_unknown30", "Verif.C36_dropped31", "Verif.C36_case", "Verif.C36_case_meets"], "note": "The keys and kinds are written from the OpenAPI specifications. 3.0: Discriminator is the one entity that is not strict."},
  {"property": "C37", "status": "proved", "theorems": ["Verif.C37_required30", "Verif.C37_required31", "Verif.C37_case"], "note": ""},
  {"property": "C38", "status": "proved", "theorems": ["Verif.C38_extensions30", "Verif.C38_extensions31", "Verif.C38_case"], "note": "Encoding (both) and Components (3.1) do not keep extensions: C70."},
  {"property": "C39", "status": "proved", "theorems": ["Verif.C39_union30", "Verif.C39_union31", "Verif.C39_case"], "note": ""},
  {"property": "C40", "status": "proved", "theorems": ["Verif.C40_skip", "Verif.C40_keys", "Verif.C40_not_object", "Verif.C40_ordered", "Verif.C40_only_objects"], "note": "On token streams of JSON values."},
  {"property": "C41", "status": "proved", "theorems": ["Verif.C41_string_keys", "Verif.C41_identity", "Verif.C41_represents", "Verif.C41_collisions", "Verif.C41_collision_order", "Verif.C41_marshals"], "note": "If keys are written alike, the result depends on Go's map order (C41_collision_order)."},
  {"property": "C42", "status": "proved", "theorems": ["Verif.C42_request", "Verif.C42_response", "Verif.C42_order", "Verif.C42_done", "Verif.V30.C42_form_fields_self_contained"], "note": ""},
  {"property": "C43", "status": "proved", "theorems": ["Verif.C43_getters", "Verif.V30.C43_new_context", "Verif.V31.C43_new_context"], "note": ""},
  {"property": "C44", "status": "proved", "theorems": ["Verif.C43_getters", "Verif.C44_field_mapping", "Verif.C44_options"], "note": ""},
  {"property": "C45", "status": "proved", "theorems": ["Verif.C45_joined_errors"], "note": ""},
  {"property": "C46", "status": "proved", "theorems": ["Verif.C46_safe_names", "Verif.C46_distinct", "Verif.C46_collision"], "note": ""},
  {"property": "C47", "status": "proved", "theorems": ["Verif.V30.C47_last_wins", "Verif.V30.C47_frame", "Verif.V31.C47_last_wins", "Verif.V31.C47_frame"], "note": ""},
  {"property": "C48", "status": "proved", "theorems": ["Verif.V30.C48_same_values", "Verif.V30.C48_depth", "Verif.V30.C48_nullable_without_type"], "note": ""},
  {"property": "C49", "status": "proved", "theorems": ["Verif.V30.C49_from_same_values", "Verif.V30.C49_null_type", "Verif.V30.C49_many_types"], "note": ""},
  {"property": "C50", "status": "proved", "theorems": ["Verif.V31.C50_same_values"], "note": ""},
  {"property": "C51", "status": "proved", "theorems": ["Verif.V30.C51_from_notes", "Verif.V30.C51_from_reference", "Verif.V30.C51_to_notes"], "note": ""},
  {"property": "C52", "status": "proved", "theorems": ["Verif.C52_json_body", "Verif.C52_json_definitions"], "note": ""},
  {"property": "C53", "status": "proved", "theorems": ["Verif.C53_parameters_exact"], "note": ""},
  {"property": "C54", "status": "proved", "theorems": ["Verif.C54_request_definitions", "Verif.C54_response_definitions"], "note": ""},
  {"property": "C55", "status": "proved", "theorems": ["Verif.C55_json_response", "Verif.C55_named_content_types", "Verif.C55_media_type"], "note": ""},
  {"property": "C56", "status": "proved", "theorems": ["Verif.C56_headers", "Verif.C56_headers_kept"], "note": ""},
  {"property": "C57", "status": "proved", "theorems": ["Verif.V30.C57_reflected_operation", "Verif.V31.C57_reflected_operation", "Verif.V31.C57_reflected_webhook"], "note": ""},
  {"property": "C58", "status": "proved", "theorems": ["Verif.V30.C58_add_succeeds_iff", "Verif.V31.C58_add_succeeds_iff", "Verif.V31.C58_webhook_succeeds_iff"], "note": ""},
  {"property": "C59", "status": "proved", "theorems": ["Verif.V30.C59_no_panic", "Verif.V31.C59_no_panic", "Verif.V30.C59_fromJS_iff", "Verif.V30.C59_convertible", "Verif.V31.C59_convertible", "Verif.V30.C59_reference_header_panics"], "note": ""},
  {"property": "C60", "status": "proved", "theorems": ["Verif.C60_plain_content", "Verif.C60_tag_on_existing", "Verif.V30.C60_parameter_nullable", "Verif.V30.C60_response_nullable", "Verif.V30.C60_header_deprecated", "Verif.V31.C60_header_deprecated", "Verif.V31.C60_parameter_schema"], "note": ""},
  {"property": "C61", "status": "proved", "theorems": ["Verif.C61_response_reference", "Verif.C61_request_reference"], "note": ""},
  {"property": "C62", "status": "proved", "theorems": ["Verif.V30.C62_contexts", "Verif.V30.C62_setters", "Verif.V30.C62_short_forms"], "note": ""},
  {"property": "C63", "status": "proved", "theorems": ["Verif.C63_components_kept", "Verif.C63_definitions_added"], "note": ""},
  {"property": "C64", "status": "proved", "theorems": ["Verif.C64_request_no_panic", "Verif.C64_response_no_panic", "Verif.V30.C64_resolves", "Verif.V30.C64_request30_no_panic", "Verif.V30.C64_response30_no_panic", "Verif.V31.C64_resolves", "Verif.V31.C64_request31_no_panic", "Verif.V31.C64_response31_no_panic", "Verif.V30.C64_request30_any", "Verif.V30.C64_response30_any", "Verif.V31.C64_request31_any", "Verif.V31.C64_response31_any"], "note": "The theorems ..._any are for documents with or without a components map."},
  {"property": "C65", "status": "proved", "theorems": ["Verif.V30.C65_found_iff", "Verif.V30.C65_means_component", "Verif.V31.C65_found_iff"], "note": ""},
  {"property": "C66", "status": "proved", "theorems": ["Verif.C66_header_names", "Verif.C66_header_key"], "note": ""},
  {"property": "C67", "status": "proved", "theorems": ["Verif.C67_example31", "Verif.C67_only_reference31", "Verif.C67_case", "Verif.C67_reference_case"], "note": ""},
  {"property": "C68", "status": "proved", "theorems": ["Verif.C68_link31", "Verif.C68_pathItem31", "Verif.C68_response31"], "note": ""},
  {"property": "C69", "status": "proved", "theorems": ["Verif.C69_style_read31", "Verif.C69_header_schema31"], "note": ""},
  {"property": "C70", "status": "proved", "theorems": ["Verif.C70_extensions_lost31", "Verif.C70_ref_lost31", "Verif.C70_server_lost31", "Verif.C70_encoding30"], "note": ""},
  {"property": "C71", "status": "proved", "theorems": ["Verif.C71_names_lost30"], "note": ""},
  {"property": "C72", "status": "proved", "theorems": ["Verif.C72_not_object30", "Verif.C72_not_object31"], "note": ""},
  {"property": "C73", "status": "proved", "theorems": ["Verif.C73_reload30", "Verif.C73_reload31", "Verif.C73_case30", "Verif.C73_case31"], "note": "The exceptions are in Spec/Load (clean30, clean31); NumsOk says that printing a number that was read and reading it again is stable. The helper types NonBearer and SchemaXORContent are excluded as roots, not as parts."},
  {"property": "C74", "status": "proved", "theorems": ["Verif.C74_order30", "Verif.C74_order31", "Verif.C74_spellings31", "Verif.C74_case30", "Verif.C74_case31"], "note": "Spec.Reordered and Spec.ReorderedVal say what may differ; Spec.ClearAs is the condition on keys: it follows the readers through the types (Spec.ReadAs)."},
  {"property": "C75", "status": "proved", "theorems": ["Verif.C75_distinct30", "Verif.C75_distinct31", "Verif.C75_spellings30", "Verif.C75_spellings31", "Verif.C75_repeated30", "Verif.C75_case30", "Verif.C75_case31", "Verif.C75_spellings_case", "Verif.C75_parameter_case"], "note": "Writable as in C35; noDerived says that the fields derived from others are nil (3.1 has none). Two spellings of the name of a text field, one of them with an object, do not count: reading that is an error whatever the order (OneEach); callbacks, whose keys are free, can be written so."},
  {"property": "C76", "status": "proved", "theorems": ["Verif.C76_yaml30", "Verif.C76_fresh30", "Verif.C76_yaml31", "Verif.C76_large30", "Verif.C76_case30", "Verif.C76_case31", "Verif.C76_large_case"], "note": "Faithful (Spec/YamlDoc) says that the YAML library reads what it wrote; Survives says which numbers float64 keeps. Writable as in C35."},
  {"property": "C77", "status": "proved", "theorems": ["Verif.C77_meaning_exists", "Verif.C77_meaning_unique", "Verif.C77_written_valid30", "Verif.C77_case30", "Verif.C77_sample_valid"], "note": "The schema is transcribed by tools/metaschema.py into Spec/Meta30 and given a meaning in Spec/Meta; keywords left out are marked skip there: formats, string patterns, numeric bounds, counts of members, uniqueness, example xor examples, schema xor content of headers, what may stand next to the content of a parameter."},
  {"property": "C78", "status": "proved", "theorems": ["Verif.C78_valid_read30", "Verif.C78_case30"], "note": "Meaning as in C77."},
  {"property": "C79", "status": "proved", "theorems": ["Verif.C79_read_valid30", "Verif.C79_case30", "Verif.C79_paths_lenient", "Verif.C79_null_lenient"], "note": "Regular (Spec/Meta) says which documents make no use of what is read beyond the schema."},
  {"property": "C80", "status": "proved", "theorems": ["Verif.V30.C80_info", "Verif.V30.C80_info_only", "Verif.V30.C80_new", "Verif.V31.C80_info", "Verif.V31.C80_info_only", "Verif.V31.C80_new"], "note": ""},
  {"property": "C81", "status": "proved", "theorems": ["Verif.C81_reflection_message", "Verif.C81_duplicate_parameter", "Verif.V30.C81_duplicate_message", "Verif.V30.C81_context_message", "Verif.V31.C81_duplicate_message", "Verif.V31.C81_context_message"], "note": "The error of a field passes through jsonschema-go, which wraps it: env.wrap, any function."},
  {"property": "C82", "status": "proved", "theorems": ["Verif.C82_meaning_exists", "Verif.C82_meaning_unique", "Verif.C82_valid_read31", "Verif.C82_case31", "Verif.C82_sample_read", "Verif.C82_exceptions"], "note": "The schema is transcribed by tools/metaschema31.py into Spec/Meta31 and given a meaning in Spec/Meta2020, no keyword left out except format and default; Supported is in Spec/Meta31Read."},
  {"property": "C83", "status": "proved", "theorems": ["Verif.C83_in_order", "Verif.C83_written", "Verif.C83_published", "Verif.C83_status", "Verif.C83_case", "Verif.C83_object_in_path", "Verif.C83_collection_in_path", "Verif.C83_content_beside_reference", "Verif.C83_status_out_of_range", "Verif.C83_path_without_slash", "Verif.C83_security_place", "Verif.C83_security_name"], "note": "What OpenAPI demands of a document is Published in Spec/Publish30 and Spec/Conform, the conditions on the input are in Spec/ConformInput, the sequences of calls in Spec/PublishHistory30. The Go value of a model document is docVal in Spec/Publish30. The meta-schema is the one of C77, with the keywords it leaves out."},
  {"property": "C84", "status": "proved", "theorems": ["Verif.C84_in_order", "Verif.C84_written", "Verif.C84_published", "Verif.C84_something", "Verif.C84_case", "Verif.C84_empty_body", "Verif.C84_object_in_path", "Verif.C84_collection_in_path", "Verif.C84_empty_parameter", "Verif.C84_empty_header", "Verif.C84_status_out_of_range", "Verif.C84_path_without_slash", "Verif.C84_security_name", "Verif.C84_security_place"], "note": "What OpenAPI demands of a document is Published in Spec/Publish31 and Spec/Conform, the conditions on the input are in Spec/ConformInput, the sequences of calls are Built in Spec/Publish31. Empty schemas are allowed except in parameters and headers (C84_empty_body). The meta-schema is the one of C82, with the keywords it leaves out."},
  {"property": "C85", "status": "proved", "theorems": ["Verif.C85_written30", "Verif.C85_built30", "Verif.C85_written31", "Verif.C85_built31", "Verif.C85_case30", "Verif.C85_case31"], "note": "The JSON is given in Spec/DocJson, member by member, without reference to the Go structs. Members of maps are in the order of the map (the codec model's order of fields and map entries is kept; what encoding/json sorts is not). Covers what documents built by the reflector can hold; fields that no method of the library sets (servers, tags, links, callbacks) are not part of the model documents."},
  {"property": "C86", "status": "proved", "theorems": ["Verif.C86_told", "Verif.C86_everything", "Verif.C86_same", "Verif.C86_old", "Verif.C86_case", "Verif.C86_case_ok"], "note": "The model of the reflector is repeated with the content of the context and a log (Seen), and proved to do the same otherwise (C86_same). A call of Reflect is taken to call back when it starts and once per field, definition or visited value."},
  {"property": "C87", "status": "proved", "theorems": ["Verif.C87_methods", "Verif.C87_call", "Verif.C87_last", "Verif.C87_entry", "Verif.C87_order", "Verif.C87_inside", "Verif.C87_json", "Verif.C87_operation", "Verif.C87_case", "Verif.C87_case_ok"], "note": "The methods are listed by tools/builders.py, which stops at any body that is not one of four shapes. SchemaAdditionalProperties of 3.0, which can be written as a boolean, is left out of C87_json only. Values are trees: that a map given to WithF stays shared with the caller is not modelled."},
  {"property": "C88", "status": "proved", "theorems": ["Verif.Mem.C88_reads", "Verif.Mem.C88_setup_error", "Verif.Mem.C88_setup_error_new", "Verif.Mem.C88_setup_error_assigns", "Verif.Mem.C88_setup_accepts", "Verif.Mem.C88_setup_ok", "Verif.Mem.C88_setup_ok_assigns", "Verif.Mem.C88_add_exists", "Verif.Mem.C88_add_error", "Verif.Mem.C88_add_ok", "Verif.Mem.C88_add_caller", "Verif.Mem.C88_history", "Verif.Mem.C88_new", "Verif.Mem.C88_shared_error"], "note": "Memory model of its own (Mem.lean), next to the value model of Spec30.lean. Setup functions are arbitrary functions on memory that change only what they can reach and leave references only to that or to new objects; panics and goroutines are not modelled."},
  {"property": "C89", "status": "proved", "theorems": ["Verif.Mem.C89_error", "Verif.Mem.C89_ok", "Verif.Mem.C89_again", "Verif.Mem.C89_new_context", "Verif.Mem.C89_new_context_isOp", "Verif.Mem.C89_others", "Verif.Mem.C89_shared"], "note": "On the memory model of C88. The reflection of an operation is an arbitrary function on memory that uses the operation and a set of objects (such as the components, taken to be there already); what it does to an operation is modelled in Reflect.lean, as values."},
  {"property": "C90", "status": "proved", "theorems": ["Verif.Mem31.C90_setup_error", "Verif.Mem31.C90_setup_in_place", "Verif.Mem31.C90_setup_accepts", "Verif.Mem31.C90_setup_ok", "Verif.Mem31.C90_add_exists", "Verif.Mem31.C90_add_error", "Verif.Mem31.C90_add_ok", "Verif.Mem31.C90_hook_exists", "Verif.Mem31.C90_hook_error", "Verif.Mem31.C90_hook_ok", "Verif.Mem31.C90_history", "Verif.Mem31.C90_new", "Verif.Mem31.C90_changed_by_error", "Verif.Mem31.C90_overwritten"], "note": "On the memory of C88, with the functions of 3.1 (Mem31.lean). Setup functions are arbitrary functions on memory that change only what they can reach; panics and goroutines are not modelled."},
  {"property": "C91", "status": "proved", "theorems": ["Verif.Mem31.C91_error", "Verif.Mem31.C91_ok", "Verif.Mem31.C91_hook_error", "Verif.Mem31.C91_hook_ok", "Verif.Mem31.C91_again", "Verif.Mem31.C91_new_context", "Verif.Mem31.C91_others", "Verif.Mem31.C91_others_hook", "Verif.Mem31.C91_shared"], "note": "On the memory model of C90; the reflection of an operation is an arbitrary function on memory that uses the operation and a set of objects, as in C89."},
  {"property": "C92", "status": "proved", "theorems": ["Verif.C92_written30", "Verif.C92_written31", "Verif.C92_absent30", "Verif.C92_absent31"], "note": "Unset and the required keys are in Spec/Members and Spec/Codec. Five auxiliary types of 3.0 that only state which keys go together are left out."},
  {"property": "C93", "status": "proved", "theorems": ["Verif.C93_kept30", "Verif.C93_kept31", "Verif.C93_dropped30", "Verif.C93_dropped31"], "note": "Entities that can never be read (Example of 3.1) satisfy this vacuously."},
  {"property": "C94", "status": "proved", "theorems": ["Verif.C94_writes30", "Verif.C94_writes31", "Verif.C94_json30", "Verif.C94_json31", "Verif.C94_roundtrip30", "Verif.C94_roundtrip31", "Verif.C94_written30", "Verif.C94_written31"], "note": "Numbers are assumed to be printed as JSON numbers (strconv). Characters stand for bytes of valid UTF-8."},
  {"property": "C95", "status": "proved", "theorems": ["Verif.C95_parse", "Verif.C95_unique", "Verif.C95_reads", "Verif.C95_layout", "Verif.C95_rejects"], "note": "The grammar is Spec/Text (RFC 8259). The scanner models encoding/json, a dependency."},
  {"property": "C96", "status": "proved", "theorems": ["Verif.C96_tokens", "Verif.C96_keys", "Verif.C96_not_object", "Verif.C96_items", "Verif.C96_rejects", "Verif.C96_writes30", "Verif.C96_writes31", "Verif.C96_reads", "Verif.C96_yaml30", "Verif.C96_fresh30", "Verif.C96_yaml31"], "note": "json.Decoder.Token is modelled as its state machine on characters. The YAML library is assumed to read what it writes (Faithful), and numbers to survive float64. Documents nested more than 10000 levels deep are excluded: encoding/json refuses them."},
  {"property": "C97", "status": "proved", "theorems": ["Verif.C97_alone", "Verif.C97_frame", "Verif.C97_same", "Verif.C97_zero30", "Verif.C97_zero31", "Verif.C97_version30", "Verif.C97_version31"], "note": "Programs are lists of steps over variables; documents have addresses. How a change of a context shows in a document it was added to is left open (any function); C88 to C91 have the details. The specification of one reflector (Spec/Refl) has no addresses."},
  {"property": "C98", "status": "proved", "theorems": ["Verif.C98_numbers", "Verif.C98_json30", "Verif.C98_deep30", "Verif.C98_yaml30", "Verif.C98_json31", "Verif.C98_deep31", "Verif.C98_yaml31", "Verif.C98_text"], "note": "Joins C83/C84 (valid), C85 (says what the document says), C94 (texts) and C96 (YAML texts). Input in order as in C83/C84; numbers that are printed by strconv are JSON numbers (PrintsNumbers); the YAML part assumes a yaml library that reads what it wrote and numbers that survive float64."},
  {"property": "C99", "status": "proved", "theorems": ["Verif.C99_same31", "Verif.C99_text31", "Verif.C99_loaded31", "Verif.C99_built31", "Verif.C99_same30", "Verif.C99_text30", "Verif.C99_loaded30", "Verif.C99_settles_loaded30", "Verif.C99_settles30", "Verif.C99_settles_built30"], "note": "Byte-identical second save. 3.1: for every Writable value, every loaded value (clean31 as in C73) and every built document. 3.0: for values whose repeated fields are filled in (Spec.filled), as they are after loading, saving and loading (C99_case30); every loaded value is settled after two saves, every built document after three (C99_settles*)."}
]}
