#!/usr/bin/env python3
"""Writes MANIFEST.json from the table below. Theorem names are given without the leading "Verif."."""
import json, os
claims = []
def claim(p, status, theorems, note=""):
    claims.append({"property": p, "status": status, "theorems": ["Verif." + t for t in theorems.split()], "note": note})

claim("C01", "proved", "C01_methods")
claim("C02", "proved", "C02_decomposition_exists_unique C02_cleaned_path C02_no_patterns")
claim("C03", "proved", "C03_idempotent")
claim("C04", "proved", "C04_names")
claim("C05", "proved", "C05_validation_exact C05_validation_sound C05_any_locations C05_ambiguous_without_standard_locations C05_undefined_reported",
      "C05_validation_exact for the four standard locations, C05_any_locations for any; a witness shows that the former fails without standard locations.")
claim("C06", "proved", "C06_order_independent C06_reported_once")
claim("C07", "proved", "V30.C07_add_success V30.C07_add_succeeds_iff V31.C07_add_success V31.C07_add_succeeds_iff")
claim("C08", "proved", "V30.C08_add_failure V31.C08_add_failure_exact V31.C08_add_failure_clobbers")
claim("C09", "proved", "V30.C09_duplicate_exact V30.C09_overwrite_with_pattern V31.C09_duplicate_exact V31.C09_overwrite_with_pattern")
claim("C10", "proved", "V30.C10_consistent_documents V31.C10_consistent_documents V31.C10_stored_iff V31.C10_no_patterns")
claim("C11", "proved", "V30.C11_setup_atomic V30.C11_setup_effect V30.C11_setup_first_error V31.C11_setup_effect V31.C11_setup_failure V31.C11_setup_first_error V31.C11_setup_not_atomic",
      "3.0: for setup functions that assign fields; for writes into a map shared with the stored operation see C88.")
claim("C12", "proved", "V31.C12_webhooks")
claim("C26", "proved", "V30.C26_round_trip V30.C26_components")
claim("C27", "proved", "V30.C27_terminates V30.C27_no_components V31.C27_terminates V31.C27_exact V31.C27_no_components",
      "Both versions. Without component schemas ToJSONSchema panics exactly if the schema contains a local reference (C27_no_components). In 3.1 it also panics exactly if a needed component does not decode (C27_exact).")
claim("C28", "proved", "V30.C28_self_contained")
claim("C29", "proved", "V30.C29_order_independent V31.C29_order_independent")
claim("C30", "proved", "V30.C30_only_needed V31.C30_only_needed")
claim("C31", "proved", "V30.C31_to_keeps V30.C31_from_drops V30.C31_from_accepts_all",
      "The property includes that the code breaks it in one direction: the other direction is proved to keep the bound.")
claim("C32", "proved", "V30.C32_booleans")
claim("C33", "proved", "V31.C33_collected V31.C33_self_contained V31.C33_other_keywords_dangle V31.C33_beside_ref_dangles")
claim("C47", "proved", "V30.C47_last_wins V30.C47_frame V31.C47_last_wins V31.C47_frame")
claim("C48", "proved", "V30.C48_same_values V30.C48_depth V30.C48_nullable_without_type")
claim("C49", "proved", "V30.C49_from_same_values V30.C49_null_type V30.C49_many_types")
claim("C51", "proved", "V30.C51_from_notes V30.C51_from_reference V30.C51_to_notes")
claim("C50", "proved", "V31.C50_same_values")

claim("C13", "proved", "C13_reflected_unique V30.C13_stored_unique V31.C13_stored_unique")
claim("C14", "proved", "V30.C14_path_fields V31.C14_path_fields V30.C14_path_parameters V31.C14_path_parameters",
      "For contexts made by NewOperationContext. C14_path_parameters: if no field is moved, every path parameter of the operation is required and every placeholder has one.")
claim("C15", "proved", "C15_append_only C15_fresh C15_collision")
claim("C16", "proved", "C16_no_body C16_body_iff C16_raw_body_for_get")
claim("C17", "proved", "C17_head_no_content", "For customise functions that do not add content.")
claim("C18", "proved", "C18_keys_distinct C18_valid_keys C18_three_digits C18_places C18_stored C18_other_places")
claim("C19", "proved", "C19_request_kept C19_request_untouched C19_response_kept C19_response_untouched")
claim("C20", "proved", "V30.C20_schemas_kept V31.C20_schemas_kept V31.C20_schemas_kept_all")
claim("C21", "proved", "V30.C21_failure V31.C21_failure V31.C21_webhook_failure", "For contexts made by NewOperationContext, the only way to get one.")
claim("C22", "proved", "V30.C22_twice V30.C22_no_context V30.C22_history V31.C22_twice V31.C22_no_context V31.C22_history V31.C22_history_all")
claim("C23", "proved", "C23_response_description C23_described C23_response_customize C23_request_description")
claim("C24", "proved", "C24_form_content_type C24_other_untouched")
claim("C25", "proved", "C25_forbidden_iff C25_context")
claim("C45", "proved", "C45_joined_errors")
claim("C46", "proved", "C46_safe_names C46_distinct C46_collision")
claim("C52", "proved", "C52_json_body C52_json_definitions")
claim("C53", "proved", "C53_parameters_exact")
claim("C54", "proved", "C54_request_definitions C54_response_definitions")
claim("C55", "proved", "C55_json_response C55_named_content_types C55_media_type")
claim("C56", "proved", "C56_headers C56_headers_kept")
claim("C57", "proved", "V30.C57_reflected_operation V31.C57_reflected_operation V31.C57_reflected_webhook")
claim("C58", "proved", "V30.C58_add_succeeds_iff V31.C58_add_succeeds_iff V31.C58_webhook_succeeds_iff")
claim("C59", "proved", "V30.C59_no_panic V31.C59_no_panic V30.C59_fromJS_iff V30.C59_convertible V31.C59_convertible V30.C59_reference_header_panics")
claim("C60", "proved", "C60_plain_content C60_tag_on_existing V30.C60_parameter_nullable V30.C60_response_nullable V30.C60_header_deprecated V31.C60_header_deprecated V31.C60_parameter_schema")
claim("C43", "proved", "C43_getters V30.C43_new_context V31.C43_new_context")
claim("C44", "proved", "C43_getters C44_field_mapping C44_options")
claim("C61", "proved", "C61_response_reference C61_request_reference")
claim("C62", "proved", "V30.C62_contexts V30.C62_setters V30.C62_short_forms")
claim("C42", "proved", "C42_request C42_response C42_order C42_done V30.C42_form_fields_self_contained")
claim("C63", "proved", "C63_components_kept C63_definitions_added")
claim("C64", "proved", "C64_request_no_panic C64_response_no_panic V30.C64_resolves V30.C64_request30_no_panic V30.C64_response30_no_panic V31.C64_resolves V31.C64_request31_no_panic V31.C64_response31_no_panic V30.C64_request30_any V30.C64_response30_any V31.C64_request31_any V31.C64_response31_any",
      "The theorems ..._any are for documents with or without a components map.")
claim("C65", "proved", "V30.C65_found_iff V30.C65_means_component V31.C65_found_iff")
claim("C66", "proved", "C66_header_names C66_header_key")
claim("C34", "proved", "C34_objects C34_part_fails C34_single C34_mixed C34_two_others C34_no_panic C34_tree",
      "On the texts of JSON values; the writer of texts (`Spec.text`) is the specification of json.Marshal.")
claim("C40", "proved", "C40_skip C40_keys C40_not_object C40_ordered C40_only_objects", "On token streams of JSON values.")
claim("C41", "proved", "C41_string_keys C41_identity C41_represents C41_collisions C41_collision_order C41_marshals",
      "If keys are written alike, the result depends on Go's map order (C41_collision_order).")
claim("C36", "proved", "C36_unknown30 C36_dropped31 C36_case C36_case_meets",
      "The keys and kinds are written from the OpenAPI specifications. 3.0: Discriminator is the one entity that is not strict.")
claim("C37", "proved", "C37_required30 C37_required31 C37_case")
claim("C38", "proved", "C38_extensions30 C38_extensions31 C38_case", "Encoding (both) and Components (3.1) do not keep extensions: C70.")
claim("C39", "proved", "C39_union30 C39_union31 C39_case")
claim("C67", "proved", "C67_example31 C67_only_reference31 C67_case C67_reference_case")
claim("C68", "proved", "C68_link31 C68_pathItem31 C68_response31")
claim("C69", "proved", "C69_style_read31 C69_header_schema31")
claim("C70", "proved", "C70_extensions_lost31 C70_ref_lost31 C70_server_lost31 C70_encoding30")
claim("C71", "proved", "C71_names_lost30")
claim("C72", "proved", "C72_not_object30 C72_not_object31")

claim("C35","proved","C35_roundtrip30 C35_roundtrip31 C35_case30 C35_case31",
  "Writable (Spec/RoundTrip) says which values are well-formed, Same what may differ after reading; both are independent of the codec's algorithm except that fields, patterns and alternatives come from the extracted tables, and that a 3.0 parameter's SchemaXORContent must hold the JSON of its schema. Excluded: 3.1 examples outside references (C67), references to links, path items, described responses (C68), number literals that reading changes.")
claim("C73","proved","C73_reload30 C73_reload31 C73_case30 C73_case31",
  "The exceptions are in Spec/Load (clean30, clean31); NumsOk says that printing a number that was read and reading it again is stable. The helper types NonBearer and SchemaXORContent are excluded as roots, not as parts.")
claim("C74","proved","C74_order30 C74_order31 C74_spellings31 C74_case30 C74_case31",
  "Spec.Reordered and Spec.ReorderedVal say what may differ; Spec.ClearAs is the condition on keys: it follows the readers through the types (Spec.ReadAs).")
claim("C75","proved","C75_distinct30 C75_distinct31 C75_spellings30 C75_spellings31 C75_repeated30 C75_case30 C75_case31 C75_spellings_case C75_parameter_case",
  "Writable as in C35; noDerived says that the fields derived from others are nil (3.1 has none). Two spellings of the name of a text field, one of them with an object, do not count: reading that is an error whatever the order (OneEach); callbacks, whose keys are free, can be written so.")
claim("C76","proved","C76_yaml30 C76_fresh30 C76_yaml31 C76_large30 C76_case30 C76_case31 C76_large_case",
  "Faithful (Spec/YamlDoc) says that the YAML library reads what it wrote; Survives says which numbers float64 keeps. Writable as in C35.")
claim("C77","proved","C77_meaning_exists C77_meaning_unique C77_written_valid30 C77_case30 C77_sample_valid",
  "The schema is transcribed by tools/metaschema.py into Spec/Meta30 and given a meaning in Spec/Meta; keywords left out are marked skip there: formats, string patterns, numeric bounds, counts of members, uniqueness, example xor examples, schema xor content of headers, what may stand next to the content of a parameter.")
claim("C78","proved","C78_valid_read30 C78_case30", "Meaning as in C77.")
claim("C79","proved","C79_read_valid30 C79_case30 C79_paths_lenient C79_null_lenient",
  "Regular (Spec/Meta) says which documents make no use of what is read beyond the schema.")
claim("C80","proved","V30.C80_info V30.C80_info_only V30.C80_new V31.C80_info V31.C80_info_only V31.C80_new")
claim("C81","proved","C81_reflection_message C81_duplicate_parameter V30.C81_duplicate_message V30.C81_context_message V31.C81_duplicate_message V31.C81_context_message",
  "The error of a field passes through jsonschema-go, which wraps it: env.wrap, any function.")
claim("C82","proved","C82_meaning_exists C82_meaning_unique C82_valid_read31 C82_case31 C82_sample_read C82_exceptions",
  "The schema is transcribed by tools/metaschema31.py into Spec/Meta31 and given a meaning in Spec/Meta2020, no keyword left out except format and default; Supported is in Spec/Meta31Read.")
claim("C83","proved","C83_in_order C83_written C83_published C83_status C83_case C83_object_in_path C83_collection_in_path C83_content_beside_reference C83_status_out_of_range C83_path_without_slash C83_security_place C83_security_name",
  "What OpenAPI demands of a document is Published in Spec/Publish30 and Spec/Conform, the conditions on the input are in Spec/ConformInput, the sequences of calls in Spec/PublishHistory30. The Go value of a model document is docVal in Spec/Publish30. The meta-schema is the one of C77, with the keywords it leaves out.")
claim("C84","proved","C84_in_order C84_written C84_published C84_something C84_case C84_empty_body C84_object_in_path C84_collection_in_path C84_empty_parameter C84_empty_header C84_status_out_of_range C84_path_without_slash C84_security_name C84_security_place",
  "What OpenAPI demands of a document is Published in Spec/Publish31 and Spec/Conform, the conditions on the input are in Spec/ConformInput, the sequences of calls are Built in Spec/Publish31. Empty schemas are allowed except in parameters and headers (C84_empty_body). The meta-schema is the one of C82, with the keywords it leaves out.")
claim("C85","proved","C85_written30 C85_built30 C85_written31 C85_built31 C85_case30 C85_case31",
  "The JSON is given in Spec/DocJson, member by member, without reference to the Go structs. Members of maps are in the order of the map (the codec model's order of fields and map entries is kept; what encoding/json sorts is not). Covers what documents built by the reflector can hold; fields that no method of the library sets (servers, tags, links, callbacks) are not part of the model documents.")
claim("C86","proved","C86_told C86_everything C86_same C86_old C86_case C86_case_ok",
  "The model of the reflector is repeated with the content of the context and a log (Seen), and proved to do the same otherwise (C86_same). A call of Reflect is taken to call back when it starts and once per field, definition or visited value.")
claim("C87", "proved", "C87_methods C87_call C87_last C87_entry C87_order C87_inside C87_json C87_operation C87_case C87_case_ok",
      "The methods are listed by tools/builders.py, which stops at any body that is not one of four shapes. SchemaAdditionalProperties of 3.0, which can be written as a boolean, is left out of C87_json only. Values are trees: that a map given to WithF stays shared with the caller is not modelled.")
claim("C88", "proved", " ".join("Mem." + x for x in "C88_reads C88_setup_error C88_setup_error_new C88_setup_error_assigns C88_setup_accepts C88_setup_ok C88_setup_ok_assigns C88_add_exists C88_add_error C88_add_ok C88_add_caller C88_history C88_new C88_shared_error".split()),
      "Memory model of its own (Mem.lean), next to the value model of Spec30.lean. Setup functions are arbitrary functions on memory that change only what they can reach and leave references only to that or to new objects; panics and goroutines are not modelled.")
claim("C89", "proved", " ".join("Mem." + x for x in "C89_error C89_ok C89_again C89_new_context C89_new_context_isOp C89_others C89_shared".split()),
      "On the memory model of C88. The reflection of an operation is an arbitrary function on memory that uses the operation and a set of objects (such as the components, taken to be there already); what it does to an operation is modelled in Reflect.lean, as values.")
claim("C90", "proved", " ".join("Mem31." + x for x in "C90_setup_error C90_setup_in_place C90_setup_accepts C90_setup_ok C90_add_exists C90_add_error C90_add_ok C90_hook_exists C90_hook_error C90_hook_ok C90_history C90_new C90_changed_by_error C90_overwritten".split()),
      "On the memory of C88, with the functions of 3.1 (Mem31.lean). Setup functions are arbitrary functions on memory that change only what they can reach; panics and goroutines are not modelled.")
claim("C91", "proved", " ".join("Mem31." + x for x in "C91_error C91_ok C91_hook_error C91_hook_ok C91_again C91_new_context C91_others C91_others_hook C91_shared".split()),
      "On the memory model of C90; the reflection of an operation is an arbitrary function on memory that uses the operation and a set of objects, as in C89.")
claim("C92", "proved", "C92_written30 C92_written31 C92_absent30 C92_absent31",
      "Unset and the required keys are in Spec/Members and Spec/Codec. Five auxiliary types of 3.0 that only state which keys go together are left out.")
claim("C93", "proved", "C93_kept30 C93_kept31 C93_dropped30 C93_dropped31",
      "Entities that can never be read (Example of 3.1) satisfy this vacuously.")
claim("C94", "proved", "C94_writes30 C94_writes31 C94_json30 C94_json31 C94_roundtrip30 C94_roundtrip31 C94_written30 C94_written31",
      "Numbers are assumed to be printed as JSON numbers (strconv). Characters stand for bytes of valid UTF-8.")
claim("C95", "proved", "C95_parse C95_unique C95_reads C95_layout C95_rejects",
      "The grammar is Spec/Text (RFC 8259). The scanner models encoding/json, a dependency.")
claim("C96", "proved", "C96_tokens C96_keys C96_not_object C96_items C96_rejects C96_writes30 C96_writes31 C96_reads C96_yaml30 C96_fresh30 C96_yaml31",
      "json.Decoder.Token is modelled as its state machine on characters. The YAML library is assumed to read what it writes (Faithful), and numbers to survive float64. Documents nested more than 10000 levels deep are excluded: encoding/json refuses them.")
claim("C97", "proved", "C97_alone C97_frame C97_same C97_zero30 C97_zero31 C97_version30 C97_version31",
      "Programs are lists of steps over variables; documents have addresses. How a change of a context shows in a document it was added to is left open (any function); C88 to C91 have the details. The specification of one reflector (Spec/Refl) has no addresses.")
claim("C98", "proved", "C98_numbers C98_json30 C98_deep30 C98_yaml30 C98_json31 C98_deep31 C98_yaml31 C98_text",
      "Joins C83/C84 (valid), C85 (says what the document says), C94 (texts) and C96 (YAML texts). Input in order as in C83/C84; numbers that are printed by strconv are JSON numbers (PrintsNumbers); the YAML part assumes a yaml library that reads what it wrote and numbers that survive float64.")
claim("C99", "proved", "C99_same31 C99_text31 C99_loaded31 C99_built31 C99_same30 C99_text30 C99_loaded30 C99_settles_loaded30 C99_settles30 C99_settles_built30",
      "Byte-identical second save. 3.1: for every Writable value, every loaded value (clean31 as in C73) and every built document. 3.0: for values whose repeated fields are filled in (Spec.filled), as they are after loading, saving and loading (C99_case30); every loaded value is settled after two saves, every built document after three (C99_settles*).")
claim("C100", "proved", "C100_order C100_ascending C100_unique C100_says C100_unwritten C100_keys C100_text31 C100_loaded31 C100_built31 C100_loaded30 C100_text30 C100_built30",
      "Text.save is Text.marshal after sorting every map, at any depth, as encoding/json does. C99 is carried over to it. In 3.0 the raw copies of parameters (SchemaXORContent) with sorted maps read as the sorted schema or content if the file has one spelling of each field name (ClearAs, Lemmas/SortedRead); every text that was written for a built document has (C75). Numbers of built documents are assumed to be printed as float64 are.")
claim("C101", "proved", "Codec.C101_same_name Codec.C101_field Codec.C101_read30 Codec.C101_read31 Codec.C101_last_scalar Codec.C101_last Codec.C101_case Codec.C101_merge_case",
      "C101_read30/31 for the structs of the entities, in terms of reading over what a field holds (decodeInto); which spellings 3.0 refuses before that is C36.")
claim("C102", "proved", "Codec.C102_new30 Codec.C102_new31 Codec.C102_again30 Codec.C102_again31 Codec.C102_written30 Codec.C102_written31 Codec.C102_accepted30 Codec.C102_accepted31 Codec.C102_accepted_case Codec.C102_parts30 Codec.C102_parts31 Codec.C102_kept Codec.C102_paths30 Codec.C102_paths31 Codec.C102_case30 Codec.C102_case31 Codec.C102_merge_case Codec.C102_repeated_case",
      "Values are trees: aliasing between parts of the value, and slice elements beyond the length, are not modelled.")
claim("C103", "proved", " ".join("V30." + x for x in "C103_overlay C103_bool C103_reference C103_panics C103_hidden C103_new C103_again C103_case".split()),
      "Extra properties of the JSON Schema are a Go map (no repeated names); sharing of slices and maps with the JSON Schema is not modelled.")
claim("C104", "proved", "C104_form_name C104_safe C104_two_components C104_distinct C104_collision C104_components C104_components_json C104_case C104_components_case",
      "InterceptDefName of jsonschema-go is taken to run the later callback on the result of the earlier one.")
claim("C105", "proved", "C105_file C105_not_file C105_detected C105_files C105_other_nulls C105_published30 C105_removes_case C105_case",
      "AddType and RemoveType are methods of jsonschema-go: AddType is modelled, RemoveType is any function that removes the type and keeps the others.")
claim("C106", "proved", " ".join("Rest30." + x for x in "C106_rest30 C106_case C106_no_response C106_repeated_reference".split()),
      "Input in order as in C83; functions given to SetupOperation must leave a response. Keywords that concern only what the JSON Schema of a type says (bounds, formats, uniqueness of required names) are not covered.")
claim("C107", "proved", "C107_followed30 C107_followed31 C107_needs30 C107_resolves31 C107_case30 C107_case31 C107_resolves_case C107_failed",
      "That a reflection reports what it refers to is the contract of jsonschema-go and a hypothesis (Complete). For 3.1 the conversion to a map is an oracle that makes no references of its own. Operations are in order as in C83 and C84.")
claim("C108", "proved", "C108_layout C108_rejects C108_accepted30 C108_accepted31 C108_text30 C108_text31 C108_paths30 C108_paths31 C108_yaml C108_yaml30 C108_yaml31 C108_yaml_rejects C108_yaml_accepted30 C108_yaml_accepted31 C108_case30 C108_case31 C108_yaml_case30 C108_yaml_case31 C108_merge_case", "What a failing call leaves behind is not modelled. yaml.v2 is an oracle that keeps what it writes (as in C96).")
claims.sort(key=lambda c: c["property"])
with open(os.path.join(os.path.dirname(__file__), "..", "MANIFEST.json"), "w") as f:
    f.write('{"claims": [\n' + ",\n".join("  " + json.dumps(c) for c in claims) + "\n]}\n")
