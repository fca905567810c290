{
 "claims": [
  {
   "property": "C01",
   "status": "proved",
   "theorems": [
    "Sadl.Props.C01_newModel_iff_unique",
    "Sadl.Props.C01_newModel_keeps_schema"
   ],
   "note": "for all schemas"
  },
  {
   "property": "C02",
   "status": "proved",
   "theorems": [
    "Sadl.Props.C02_findType",
    "Sadl.Props.C02_findType_none",
    "Sadl.Props.C02_findType_name",
    "Sadl.Props.C02_findHttp"
   ],
   "note": "for all accepted schemas and names"
  },
  {
   "property": "C03",
   "status": "proved",
   "theorems": [
    "Sadl.Props.C03_accepts_iff_conforms",
    "Sadl.Props.C03_rejects_not_conforms",
    "Sadl.Props.C03_verdict_unique"
   ],
   "note": "acceptance <=> independent inductive conformance relation; rejection excludes conformance; verdict unique"
  },
  {
   "property": "C04",
   "status": "proved",
   "theorems": [
    "Sadl.Props.C04_order_independent",
    "Sadl.Props.C04_rejection_order_independent"
   ],
   "note": "reordering at every nesting depth; rejection too where validation terminates"
  },
  {
   "property": "C05",
   "status": "partial",
   "theorems": [
    "Sadl.Props.C05_exact_partial",
    "Sadl.Props.C05_accepted_partial",
    "Sadl.Props.C05_example",
    "Sadl.Props.C05_refuted_list",
    "Sadl.Props.C05_terminates_partial",
    "Sadl.Props.C05_union_runs_forever",
    "Sadl.Props.C05_refuted"
   ],
   "note": "false for Union types and for a type List defined as itself (C05_union_runs_forever, C05_refuted, C05_refuted_list). C05_exact_partial and C05_accepted_partial: exactly when validation never returns, for the types of every accepted source: the value gets to a part whose type is defined as itself, all parts before it being fine; in all other cases it accepts or rejects. C05_terminates_partial: always returns for schemas without Union"
  },
  {
   "property": "C06",
   "status": "partial",
   "theorems": [
    "Sadl.Props.C06_explicit_bounds_partial",
    "Sadl.Props.C06_int_range_not_enforced",
    "Sadl.Props.C06_refuted"
   ],
   "note": "explicit bounds proved exact; the implied integer range is not enforced by the code (C06_int_range_not_enforced, C06_refuted)"
  },
  {
   "property": "C07",
   "status": "proved",
   "theorems": [
    "Sadl.Props.C07_string"
   ],
   "note": "regexp matching abstract (Lib)"
  },
  {
   "property": "C08",
   "status": "proved",
   "theorems": [
    "Sadl.Props.C08_enum"
   ],
   "note": ""
  },
  {
   "property": "C09",
   "status": "proved",
   "theorems": [
    "Sadl.Props.C09_struct",
    "Sadl.Props.C09_struct_field_named"
   ],
   "note": ""
  },
  {
   "property": "C10",
   "status": "proved",
   "theorems": [
    "Sadl.Props.C10_array",
    "Sadl.Props.C10_map"
   ],
   "note": ""
  },
  {
   "property": "C11",
   "status": "proved",
   "theorems": [
    "Sadl.Props.C11_argument_or_empty",
    "Sadl.Props.C11_accepts_iff",
    "Sadl.Props.C11_canonical_accepted",
    "Sadl.Props.C11_refuted"
   ],
   "note": "exact; the other 32 bytes need not be hexadecimal digits (C11_refuted)"
  },
  {
   "property": "C12",
   "status": "partial",
   "theorems": [
    "Sadl.Props.C12_parsed_validates_partial",
    "Sadl.Props.C12_short_number_rejected",
    "Sadl.Props.C12_plain_string_rejected",
    "Sadl.Props.C12_refuted"
   ],
   "note": "holds when the printed text has the shape the validator requires; false for short numbers (C12_refuted)"
  },
  {
   "property": "C13",
   "status": "partial",
   "theorems": [
    "Sadl.Props.C13_reflexive",
    "Sadl.Props.C13_reflexive_by_name",
    "Sadl.Props.C13_symmetric_partial",
    "Sadl.Props.C13_refuted_symmetric",
    "Sadl.Props.C13_same_values_partial",
    "Sadl.Props.C13_refuted_values_struct",
    "Sadl.Props.C13_refuted_values_maxsize"
   ],
   "note": "reflexivity proved; symmetry and 'same values' proved on the fragment the code compares, refuted outside it (C13_refuted_*)"
  },
  {
   "property": "C14",
   "status": "partial",
   "theorems": [
    "Sadl.Props.C14_returns_partial",
    "Sadl.Props.C14_refuted_diverges",
    "Sadl.Props.C14_refuted_crashes"
   ],
   "note": "returns for acyclic references; refuted for recursive arrays and for built-in containers (C14_refuted_*)"
  },
  {
   "property": "C15",
   "status": "partial",
   "theorems": [
    "Sadl.Props.C15_conversion",
    "Sadl.Props.C15_no_inline_enum_left_partial",
    "Sadl.Props.C15_refuted",
    "Sadl.Props.C15_fails_iff"
   ],
   "note": "conversion and failure condition characterised for all models; 'no inline enum left' needs non-empty enums (C15_refuted)"
  },
  {
   "property": "C16",
   "status": "partial",
   "theorems": [
    "Sadl.Props.C16_consistent_partial",
    "Sadl.Props.C16_refuted_collision",
    "Sadl.Props.C16_refuted_existing"
   ],
   "note": "proved when made-up names are distinct and new; refuted otherwise (C16_refuted_*)"
  },
  {
   "property": "C17",
   "status": "partial",
   "theorems": [
    "Sadl.Props.C17_failure_adds_nothing_partial",
    "Sadl.Props.C17_refuted"
   ],
   "note": "false (C17_refuted); proved what a failure can have changed"
  },
  {
   "property": "C18",
   "status": "proved",
   "theorems": [
    "Sadl.Props.C18_parsing_terminates",
    "Sadl.Props.C18_parsing_terminates_with_includes",
    "Sadl.Props.C18_bound_unobservable",
    "Sadl.Props.C18_whole_source_read"
   ],
   "note": "terminates for every token sequence (included files: provided parsing them does); loops without bound agree with the model's"
  },
  {
   "property": "C19",
   "status": "partial",
   "theorems": [
    "Sadl.Props.C19_no_crash_partial",
    "Sadl.Props.C19_refuted_end_of_file",
    "Sadl.Props.C19_refuted_operation_option"
   ],
   "note": "false (C19_refuted_*: source ending inside an operation, operation options); proved for sources without operation directives (C19_no_crash_partial)"
  },
  {
   "property": "C20",
   "status": "proved",
   "theorems": [
    "Sadl.Props.C20_read",
    "Sadl.Props.C20_push_back_transparent",
    "Sadl.Props.C20_no_block_comments",
    "Sadl.Props.C20_end_of_source_excluded"
   ],
   "note": "for every history of reads and push-backs; push-back at the end of the source excluded, see C20_end_of_source_excluded"
  },
  {
   "property": "C21",
   "status": "partial",
   "theorems": [
    "Sadl.Props.C21_references_partial",
    "Sadl.Props.C21_refuted_union",
    "Sadl.Props.C21_refuted_map_keys",
    "Sadl.Props.C21_refuted_exception",
    "Sadl.Props.C21_refuted_nested"
   ],
   "note": "false for union variants, keys of maps with Any items, exceptions of actions without expect, and nested struct types (C21_refuted_*); C21_references_partial proves every reference that is checked"
  },
  {
   "property": "C22",
   "status": "partial",
   "theorems": [
    "Sadl.Props.C22_defaults_partial",
    "Sadl.Props.C22_refuted"
   ],
   "note": "false for fields of inline struct types (C22_refuted); proved for the fields of struct types (C22_defaults_partial)"
  },
  {
   "property": "C23",
   "status": "partial",
   "theorems": [
    "Sadl.Props.C23_pattern_or_values_partial",
    "Sadl.Props.C23_refuted"
   ],
   "note": "false for fields of inline struct types (C23_refuted); proved for types and fields of struct types (C23_pattern_or_values_partial)"
  },
  {
   "property": "C24",
   "status": "proved",
   "theorems": [
    "Sadl.Props.C24_template_exact",
    "Sadl.Props.C24_template_split"
   ],
   "note": ""
  },
  {
   "property": "C25",
   "status": "proved",
   "theorems": [
    "Sadl.Props.C25_source_exact",
    "Sadl.Props.C25_query_whole_item",
    "Sadl.Props.C25_refuted",
    "Sadl.Props.C25_recorded_once"
   ],
   "note": "exact; the expectation that the item ends after {name} is false (C25_refuted), and true when no item has a second equals sign (C25_query_whole_item)"
  },
  {
   "property": "C26",
   "status": "proved",
   "theorems": [
    "Sadl.Props.C26_body_rules"
   ],
   "note": "for every accepted source; the lexer is assumed not to deliver empty symbols"
  },
  {
   "property": "C27",
   "status": "proved",
   "theorems": [
    "Sadl.Props.C27_exceptions_distinct",
    "Sadl.Props.C27_second_expect",
    "Sadl.Props.C27_second_exception"
   ],
   "note": ""
  },
  {
   "property": "C28",
   "status": "partial",
   "theorems": [
    "Sadl.Props.C28_default_name",
    "Sadl.Props.C28_explicit",
    "Sadl.Props.C28_name_not_empty_partial",
    "Sadl.Props.C28_unnamed_action",
    "Sadl.Props.C28_file_partial",
    "Sadl.Props.C28_refuted"
   ],
   "note": "false when no response type and no explicit name (C28_refuted); default and explicit naming proved"
  },
  {
   "property": "C29",
   "status": "partial",
   "theorems": [
    "Sadl.Props.C29_empty_ignored",
    "Sadl.Props.C29_keeps_text",
    "Sadl.Props.C29_keeps_text_all",
    "Sadl.Props.C29_trimmed_partial",
    "Sadl.Props.C29_associative_partial",
    "Sadl.Props.C29_refuted"
   ],
   "note": "false for comments made of blanks (C29_refuted); proved for trimmed comments"
  },
  {
   "property": "C30",
   "status": "proved",
   "theorems": [
    "Sadl.Props.C30_accepted",
    "Sadl.Props.C30_accepts",
    "Sadl.Props.C30_unacceptable",
    "Sadl.Props.C30_absent",
    "Sadl.Props.C30_otherwise_error",
    "Sadl.Props.C30_constraints_suit"
   ],
   "note": "Soundness, completeness and error behaviour of option lists against an independent notation (Spec/Options); and, for every parsed source, constraints suit the type of every definition and field at any depth."
  },
  {
   "property": "C31",
   "status": "partial",
   "theorems": [
    "Sadl.Props.C31_refuted",
    "Sadl.Props.C31_added_partial",
    "Sadl.Props.C31_removed_partial",
    "Sadl.Props.C31_accepted_partial",
    "Sadl.Props.C31_example",
    "Sadl.Props.C31_refuted_comment"
   ],
   "note": "Proved: a source that does not end with a line comment and parses also parses, to the same schema, with a newline added (C31_added_partial, C31_accepted_partial for parsing with validation), hence removing the final newline never changes the schema: the shorter source parses to the same schema or does not parse (C31_removed_partial). Refuted as stated: a struct, enum or union definition at the very end needs its newline (C31_refuted), and a comment at the very end may be doubled (C31_refuted_comment)."
  },
  {
   "property": "C32",
   "status": "proved",
   "theorems": [
    "Sadl.Props.C32_only_literals",
    "Sadl.Props.C32_literal_value",
    "Sadl.Props.C32_json",
    "Sadl.Props.C32_unambiguous"
   ],
   "note": "relative to the number and string conversions of the Go library"
  },
  {
   "property": "C33",
   "status": "partial",
   "theorems": [
    "Sadl.Props.C33_roundtrip_partial",
    "Sadl.Props.C33_refuted_field_default",
    "Sadl.Props.C33_refuted_type_annotations",
    "Sadl.Props.C33_refuted_unitValue",
    "Sadl.Props.C33_refuted_expect",
    "Sadl.Props.C33_refuted_pattern"
   ],
   "note": "Proved for every printable model (Spec/Printable, an explicit list of what each construct may carry). Refuted for others by accepted sources: field defaults, type annotations, UnitValue parameters, missing expect clauses and escaped patterns do not survive (C33_refuted_*)."
  },
  {
   "property": "C34",
   "status": "partial",
   "theorems": [
    "Sadl.Props.C34_type_examples_partial",
    "Sadl.Props.C34_http_examples_partial",
    "Sadl.Props.C34_refuted_unknown_member",
    "Sadl.Props.C34_refuted_inline_struct"
   ],
   "note": "false: unknown members of HTTP examples and inline constraints of parameters are not checked (C34_refuted_*); proved for type targets, required members, and members against the named type"
  },
  {
   "property": "C35",
   "status": "partial",
   "theorems": [
    "Sadl.Props.C35_include_partial",
    "Sadl.Props.C35_inconsistent_refused",
    "Sadl.Props.C35_bad_file_refused",
    "Sadl.Props.C35_kept",
    "Sadl.Props.C35_first_include",
    "Sadl.Props.C35_bound_unobservable",
    "Sadl.Props.C35_terminates_partial",
    "Sadl.Props.C35_circle_diverges",
    "Sadl.Props.C35_refuted"
   ],
   "note": "What an include adds and refuses, for any files; termination only for include graphs without circles; circular includes diverge (C35_circle_diverges, C35_refuted)."
  },
  {
   "property": "C36",
   "status": "partial",
   "theorems": [
    "Sadl.Props.C36_round_trip_partial",
    "Sadl.Props.C36_offset_lost",
    "Sadl.Props.C36_refuted",
    "Sadl.Props.C36_short_year_unparsable",
    "Sadl.Props.C36_zero_offset_spellings"
   ],
   "note": "exact for UTC timestamps with four-digit years; offsets are dropped (C36_refuted)"
  },
  {
   "property": "C37",
   "status": "partial",
   "theorems": [
    "Sadl.Props.C37_unit_value_round_trip_partial",
    "Sadl.Props.C37_reparse",
    "Sadl.Props.C37_refuted"
   ],
   "note": "round trip for units without spaces; false otherwise (C37_refuted); decimal printing is a parameter with recorded assumptions"
  },
  {
   "property": "C38",
   "status": "partial",
   "theorems": [
    "Sadl.Spec.C38_get_iff",
    "Sadl.Spec.C38_get_only",
    "Sadl.Spec.C38_typed",
    "Sadl.Props.C38_get_put",
    "Sadl.Props.C38_put_other",
    "Sadl.Props.C38_last_put_wins",
    "Sadl.Props.C38_get_follows_path_partial",
    "Sadl.Props.C38_get_one_key",
    "Sadl.Props.C38_refuted"
   ],
   "note": "put/get laws proved; multi-key get falls through non-maps (C38_refuted) C38_get_iff says exactly what is returned for every path (keys that are not there are skipped), C38_get_only that it is what some of the keys, among them the last, lead to, C38_typed extends this to the accessors by kind."
  },
  {
   "property": "C39",
   "status": "partial",
   "theorems": [
    "Sadl.Spec.C39_fallback",
    "Sadl.Spec.C39_asInt_whole",
    "Sadl.Spec.C39_map_agrees",
    "Sadl.Props.C39_asString",
    "Sadl.Props.C39_asBool",
    "Sadl.Props.C39_asStringArray",
    "Sadl.Props.C39_asStringArray_other",
    "Sadl.Props.C39_asInt",
    "Sadl.Props.C39_asInt_truncates",
    "Sadl.Props.C39_refuted"
   ],
   "note": "each conversion characterised; the array accessors disagree with each other (C39_refuted) C39_fallback, C39_asInt_whole and C39_map_agrees cover the other kinds, whole floats and the accessors of maps."
  },
  {
   "property": "C40",
   "status": "partial",
   "theorems": [
    "Sadl.Props.C40_wrap_partial",
    "Sadl.Props.C40_multiline",
    "Sadl.Props.C40_refuted_width",
    "Sadl.Props.C40_refuted_indent",
    "Sadl.Props.C40_refuted_blank_line"
   ],
   "note": "words kept in order, width respected when words fit; false in the cases of C40_refuted_*"
  },
  {
   "property": "C41",
   "status": "partial",
   "theorems": [
    "Sadl.Props.C41_capitalize_partial",
    "Sadl.Props.C41_first_byte",
    "Sadl.Props.C41_refuted"
   ],
   "note": "ASCII first byte; false for multi-byte first characters (C41_refuted)"
  },
  {
   "property": "C42",
   "status": "partial",
   "theorems": [
    "Sadl.Props.C42_no_overwrite",
    "Sadl.Props.C42_unreadable_untouched",
    "Sadl.Props.C42_emit_after_error_partial",
    "Sadl.Props.C42_refuted"
   ],
   "note": "no overwrite proved over all histories; an error does not stop later writes (C42_refuted)"
  },
  {
   "property": "C43",
   "status": "partial",
   "theorems": [
    "Sadl.Props.C43_no_query",
    "Sadl.Props.C43_strip_partial",
    "Sadl.Props.C43_refuted_value_lost",
    "Sadl.Props.C43_refuted_dangling"
   ],
   "note": "exact for single-valued parameters; false in the cases of C43_refuted_*"
  },
  {
   "property": "C44",
   "status": "partial",
   "theorems": [
    "Sadl.Props.C44_operations_partial",
    "Sadl.Props.C44_no_other_operations",
    "Sadl.Props.C44_duplicates",
    "Sadl.Props.C44_duplicates_error",
    "Sadl.Props.C44_refuted_patch"
   ],
   "note": "C44_operations_partial: every GET/PUT/POST/DELETE action has an operation under its path and method that describes it; C44_no_other_operations, C44_duplicates(_error): sharing gives an error. False for PATCH and other methods, whose actions are dropped: C44_refuted_patch."
  },
  {
   "property": "C45",
   "status": "partial",
   "theorems": [
    "Sadl.Props.C45_refs_partial",
    "Sadl.Props.C45_refuted"
   ],
   "note": "C45_refs_partial: all references resolve for schemas satisfying RefSafe. False for enumerations written in place, Any, and maps of enumerations: C45_refuted."
  },
  {
   "property": "C46",
   "status": "partial",
   "theorems": [
    "Sadl.Props.C46_returns_partial",
    "Sadl.Props.C46_document_iff",
    "Sadl.Props.C46_accepted_iff",
    "Sadl.Props.C46_refuted_float",
    "Sadl.Props.C46_refuted_expect",
    "Sadl.Props.C46_refuted_example",
    "Sadl.Props.C46_refuted_recursion"
   ],
   "note": "C46_returns_partial: schemas satisfying OasSafe export to a document or an error, with no bound on their size. C46_document_iff and C46_accepted_iff: exactly the schemas satisfying OasReady (a specification in terms of the schema alone) export to a document. False for arrays of Float64, actions without expected response, examples of responses of an action that is not the first on its path (panic) and types containing maps of themselves (no end): C46_refuted_*."
  },
  {
   "property": "C47",
   "status": "partial",
   "theorems": [
    "Sadl.Props.C47_types_partial",
    "Sadl.Props.C47_model_partial",
    "Sadl.Props.C47_refuted_numbers",
    "Sadl.Props.C47_refuted_map",
    "Sadl.Props.C47_refuted_values",
    "Sadl.Props.C47_refuted_items"
   ],
   "note": "C47_types_partial and C47_model_partial: the types satisfying TypeKept are the same after export and import, up to the order of types and fields. False for small integers, floats, maps, string types with symbol values, arrays of named string types: C47_refuted_*."
  },
  {
   "property": "C48",
   "status": "proved",
   "theorems": [
    "Sadl.C48_exact",
    "Sadl.C48_user_types",
    "Sadl.C48_refuted",
    "Sadl.C48_injective"
   ],
   "note": "exact; UUID and Array never survive (C48_refuted)"
  },
  {
   "property": "C49",
   "status": "proved",
   "theorems": [
    "Sadl.C49_category_iff",
    "Sadl.C49_exactly_one",
    "Sadl.C49_monotone"
   ],
   "note": "for all integer statuses; statuses below 100 count as informational, above 599 as server"
  },
  {
   "property": "C50",
   "status": "proved",
   "theorems": [
    "Sadl.C50_scalars_exact",
    "Sadl.C50_refuted",
    "Sadl.C50_user_types",
    "Sadl.C50_arrays"
   ],
   "note": "exact, for all scalars and configurations; the other scalars change (C50_refuted)"
  },
  {
   "property": "C51",
   "status": "partial",
   "theorems": [
    "Sadl.C51_one_format_partial",
    "Sadl.C51_mixed_refused",
    "Sadl.C51_unknown_refused",
    "Sadl.C51_same_format_accepted",
    "Sadl.C51_no_panic",
    "Sadl.C51_refuted"
   ],
   "note": "mixed formats and lists without known format refused, one format otherwise, no panic; unrecognised files are skipped silently instead of refused (C51_refuted); file system and IsValidFile abstract"
  },
  {
   "property": "C52",
   "status": "proved",
   "theorems": [
    "Sadl.Props.C52_order_independent",
    "Sadl.Props.C52_passes_iff"
   ],
   "note": "also for permutations of examples and HTTP actions"
  },
  {
   "property": "C53",
   "status": "proved",
   "theorems": [
    "Sadl.Props.C53_accepted_valid",
    "Sadl.Props.C53_accepts_iff_valid"
   ],
   "note": "both directions, against the specification in Spec/Valid.lean; assumes the lexer delivers no empty symbols"
  },
  {
   "property": "C54",
   "status": "proved",
   "theorems": [
    "Sadl.Props.C54_source",
    "Sadl.Props.C54_file",
    "Sadl.Props.C54_accepted"
   ],
   "note": "against the grammar in Spec/Grammar.lean, which is written as inductive relations over tokens and marks what the parser tolerates beyond the documented notation; the lexer is not modelled"
  },
  {
   "property": "C55",
   "status": "proved",
   "theorems": [
    "Sadl.Props.C55_source",
    "Sadl.Props.C55_file"
   ],
   "note": "from C54"
  },
  {
   "property": "C56",
   "status": "partial",
   "theorems": [
    "Sadl.Props.C56_types_partial",
    "Sadl.Props.C56_operations_partial",
    "Sadl.Props.C56_refuted_fractions",
    "Sadl.Props.C56_refuted_lengths"
   ],
   "note": "false as stated: a fraction conforms to an integer type but the schema refuses it, and lengths count bytes in the model but characters in OpenAPI (C56_refuted_*). Proved for schemas whose references and limits OpenAPI can express, without Bytes, for ASCII strings and, where there are integer types, whole numbers"
  },
  {
   "property": "C57",
   "status": "partial",
   "theorems": [
    "Sadl.Props.C57_types_partial",
    "Sadl.Props.C57_operations_partial",
    "Sadl.Props.C57_refuted_sizes",
    "Sadl.Props.C57_refuted_uuid"
   ],
   "note": "false as stated: sizes of collections and the shape of UUIDs written in place are dropped (C57_refuted_*). Proved for schemas that avoid what the export weakens (Spec.Exact), for plain JSON values with ASCII strings"
  },
  {
   "property": "C58",
   "status": "proved",
   "theorems": [
    "Sadl.Props.C58_succeeds_iff",
    "Sadl.Props.C58_errors",
    "Sadl.Props.C58_panics",
    "Sadl.Props.C58_independent"
   ],
   "note": "exact characterisation (C58_succeeds_iff), with the cause of every error and panic; the AST library smithylib is assumed to be an ordered map"
  },
  {
   "property": "C59",
   "status": "partial",
   "theorems": [
    "Sadl.Props.C59_accepted_partial",
    "Sadl.Props.C59_refuted_types",
    "Sadl.Props.C59_refuted_expect",
    "Sadl.Props.C59_refuted_exception"
   ],
   "note": "false as stated: types based on Bool, Bytes, Timestamp, UnitValue or Any and actions without expect panic, built-in exception types give an error (C59_refuted_*). Proved for accepted sources without these"
  },
  {
   "property": "C60",
   "status": "partial",
   "theorems": [
    "Sadl.Props.C60_refs_partial",
    "Sadl.Props.C60_shapes",
    "Sadl.Props.C60_refuted",
    "Sadl.Props.C60_refuted_union"
   ],
   "note": "false as stated: collections, enumerations, Any and unit values written in place and unions of built-in types leave dangling references (C60_refuted*). Proved for schemas that refer only to scalars and to their own types"
  },
  {
   "property": "C61",
   "status": "partial",
   "theorems": [
    "Sadl.Props.C61_types_partial",
    "Sadl.Props.C61_values_partial",
    "Sadl.Props.C61_refuted_size",
    "Sadl.Props.C61_refuted_limit",
    "Sadl.Props.C61_refuted_array_size",
    "Sadl.Props.C61_refuted_uuid",
    "Sadl.Props.C61_refuted_field_size",
    "Sadl.Props.C61_refuted_field_array",
    "Sadl.Props.C61_refuted_default",
    "Sadl.Props.C61_refuted_field_comment",
    "Sadl.Props.C61_refuted_symbol_comment",
    "Sadl.Props.C61_refuted_annotation"
   ],
   "note": "false as stated: sizes are lost in memory, limits through a file, array sizes, defaults, field and symbol comments, constraints and collections written at a field, UUIDs and annotations always (C61_refuted_*). Proved for schemas whose types avoid these (SmithyKept), with the values of a type unchanged"
  },
  {
   "property": "C62",
   "status": "partial",
   "theorems": [
    "Sadl.Props.C62_actions_partial",
    "Sadl.Props.C62_refuted_query",
    "Sadl.Props.C62_refuted_base",
    "Sadl.Props.C62_refuted_required_output",
    "Sadl.Props.C62_refuted_header",
    "Sadl.Props.C62_refuted_required_header"
   ],
   "note": "false as stated: required outputs and headers become optional, the base joins the path, query parameters are renamed in the path and an action with only header inputs gets a body (C62_refuted_*). Proved otherwise, up to the required flag and the base"
  },
  {
   "property": "C63",
   "status": "partial",
   "theorems": [
    "Sadl.Props.C63_actions_partial",
    "Sadl.Props.C63_refuted_method",
    "Sadl.Props.C63_refuted_base",
    "Sadl.Props.C63_refuted_digits",
    "Sadl.Props.C63_refuted_int64",
    "Sadl.Props.C63_refuted_timestamp",
    "Sadl.Props.C63_refuted_required_output",
    "Sadl.Props.C63_refuted_body",
    "Sadl.Props.C63_refuted_inline_body",
    "Sadl.Props.C63_refuted_tags",
    "Sadl.Props.C63_refuted_panic"
   ],
   "note": "false as stated: other methods are lost, the base joins the path, names lose digits (and the import panics for a path parameter with one), Int64 and Timestamp parameters change, required outputs become optional, bodies are renamed or lost, tags become a resource (C63_refuted_*). Proved for the actions that avoid these, up to the order of actions, outputs and exceptions"
  },
  {
   "property": "C64",
   "status": "proved",
   "theorems": [
    "Sadl.Props.C64_generates_iff",
    "Sadl.Props.C64_panics_iff",
    "Sadl.Props.C64_refuted_bool",
    "Sadl.Props.C64_refuted_timestamp",
    "Sadl.Props.C64_refuted_bytes",
    "Sadl.Props.C64_refuted_unitvalue",
    "Sadl.Props.C64_refuted_union",
    "Sadl.Props.C64_refuted_action"
   ],
   "note": "exact; accepted sources that cannot be generated exist (C64_refuted_*)"
  },
  {
   "property": "C65",
   "status": "proved",
   "theorems": [
    "Sadl.Props.C65_compiles_iff",
    "Sadl.Props.C65_refuted_enum_imports",
    "Sadl.Props.C65_refuted_enum_symbols",
    "Sadl.Props.C65_refuted_keyword",
    "Sadl.Props.C65_refuted_uuid",
    "Sadl.Props.C65_refuted_fields",
    "Sadl.Props.C65_refuted_number",
    "Sadl.Props.C65_refuted_recursive",
    "Sadl.Props.C65_refuted_nameless"
   ],
   "note": "exact, for a service whose name is not that of a built-in type; accepted sources with bad Go exist (C65_refuted_*). Expressions inside functions are not checked, nor is the shadowing of predeclared names"
  },
  {
   "property": "C66",
   "status": "proved",
   "theorems": [
    "Sadl.Props.C66_mirrors"
   ],
   "note": "for every accepted source for which types are generated (C64)"
  },
  {
   "property": "C67",
   "status": "proved",
   "theorems": [
    "Sadl.Props.C67_reads_back",
    "Sadl.Props.C67_too_deep",
    "Sadl.Props.C67_not_an_object",
    "Sadl.Props.C67_unmarshal"
   ],
   "note": "for values made of null, booleans, strings, numbers that the Go library prints and parses back, arrays and objects; C67_too_deep and C67_not_an_object show that the two conditions are needed"
  },
  {
   "property": "C68",
   "status": "proved",
   "theorems": [
    "Sadl.Props.C68_equivalent"
   ],
   "note": "for the values JSON texts decode to"
  },
  {
   "property": "C69",
   "status": "partial",
   "theorems": [
    "Sadl.Props.C69_uuid_partial",
    "Sadl.Props.C69_refuted_uuid",
    "Sadl.Props.C69_timestamp_partial",
    "Sadl.Props.C69_refuted_timestamp",
    "Sadl.Props.C69_unit_value_partial",
    "Sadl.Props.C69_refuted_unit_value",
    "Sadl.Props.C69_decimal_partial",
    "Sadl.Props.C69_refuted_decimal"
   ],
   "note": "false as stated: the zero timestamp, the empty UUID, units with quotes, backslashes or control characters and infinite decimals (C69_refuted_*). Proved: the exact condition for UUIDs and units, UTC timestamps of the years 1000 to 9999 up to the millisecond, and decimals whose text is a JSON number"
  },
  {
   "property": "C70",
   "status": "partial",
   "theorems": [
    "Sadl.Props.C70_settings_partial",
    "Sadl.Props.C70_lookup",
    "Sadl.Props.C70_server_and_client",
    "Sadl.Props.C70_import_settings",
    "Sadl.Props.C70_refuted_equals",
    "Sadl.Props.C70_refuted_section",
    "Sadl.Props.C70_refuted_not_an_object"
   ],
   "note": "false as stated: values with a `=` are cut, go-server does not see the settings for go, and nothing is set if the section is not an object (C70_refuted_*). Proved for options without a second `=` and sections that are objects or missing"
  },
  {
   "property": "C71",
   "status": "proved",
   "theorems": [
    "Sadl.Props.C71_exports_iff",
    "Sadl.Props.C71_no_errors",
    "Sadl.Props.C71_refuted"
   ],
   "note": "exact; accepted models that cannot be exported exist (C71_refuted)"
  },
  {
   "property": "C72",
   "status": "partial",
   "theorems": [
    "Sadl.Props.C72_valid_partial",
    "Sadl.Props.C72_refuted_array",
    "Sadl.Props.C72_refuted_union",
    "Sadl.Props.C72_refuted_empty",
    "Sadl.Props.C72_refuted_name"
   ],
   "note": "false as stated: items of arrays and variants of unions are written under their SADL names, empty types give empty braces, and a type may have the name of a GraphQL scalar (C72_refuted_*). Proved: if names are names, comments are single lines and no type is empty, the text is a GraphQL document, valid exactly if the schema satisfies GqlSayable"
  },
  {
   "property": "C73",
   "status": "proved",
   "theorems": [
    "Sadl.Props.C73_imports_iff",
    "Sadl.Props.C73_shows",
    "Sadl.Props.C73_no_panic",
    "Sadl.Props.C73_nested_list"
   ],
   "note": "for the syntax trees that graphql-go builds, its parser being a parameter; C73_nested_list shows that nested lists make the import panic"
  },
  {
   "property": "C74",
   "status": "partial",
   "theorems": [
    "Sadl.Props.C74_comes_back_partial",
    "Sadl.Props.C74_refuted"
   ],
   "note": "false as stated (C74_refuted: an Int64 becomes a Float64). Proved: the exact condition, under the conditions that make the text a document"
  },
  {
   "property": "C75",
   "status": "proved",
   "theorems": [
    "Sadl.Props.C75_crash_iff",
    "Sadl.Props.C75_accepted",
    "Sadl.Props.C75_refuted_no_expect",
    "Sadl.Props.C75_refuted_not_an_object"
   ],
   "note": "exact; accepted models that crash exist (C75_refuted_*)"
  },
  {
   "property": "C76",
   "status": "partial",
   "theorems": [
    "Sadl.Props.C76_request_partial",
    "Sadl.Props.C76_refuted_encoding",
    "Sadl.Props.C76_refuted_bool",
    "Sadl.Props.C76_refuted_braces"
   ],
   "note": "false as stated: values are not percent-encoded, Booleans are not shown, and a value in braces is replaced again (C76_refuted_*). Proved for values made of unreserved characters that are strings or numbers"
  },
  {
   "property": "C77",
   "status": "partial",
   "theorems": [
    "Sadl.Props.C77_expected_partial",
    "Sadl.Props.C77_exception",
    "Sadl.Props.C77_refuted_status"
   ],
   "note": "false as stated (C77_refuted_status: an expected response is shown with the status of an exception). Proved: expected responses if no exception example has the same name; exceptions"
  },
  {
   "property": "C78",
   "status": "partial",
   "theorems": [
    "Sadl.Props.C78_sections",
    "Sadl.Props.C78_every_request_partial",
    "Sadl.Props.C78_refuted"
   ],
   "note": "false as stated (C78_refuted: of several request examples without names only the last is shown). Proved: one section for each name of a request example, actions in order; all are shown if names are distinct"
  },
  {
   "property": "C79",
   "status": "proved",
   "theorems": [
    "Sadl.Props.C79_load_error_iff",
    "Sadl.Props.C79_load_crash_iff",
    "Sadl.Props.C79_load_ok_iff",
    "Sadl.Props.C79_refuted_all_of",
    "Sadl.Props.C79_refuted_array",
    "Sadl.Props.C79_refuted_shared_parameter"
   ],
   "note": "exact; documents that crash exist (C79_refuted_*)"
  },
  {
   "property": "C80",
   "status": "partial",
   "theorems": [
    "Sadl.Props.C80_types_partial",
    "Sadl.Props.C80_info",
    "Sadl.Props.C80_annotations",
    "Sadl.Props.C80_refuted_limits",
    "Sadl.Props.C80_refuted_chain",
    "Sadl.Props.C80_refuted_decimal",
    "Sadl.Props.C80_refuted_items",
    "Sadl.Props.C80_refuted_map"
   ],
   "note": "false as stated (C80_refuted_*: minimum and maximum, references to references, definitions named Decimal, constraints on items, maps). Proved: types correspond to definitions, and the ones whose schema has a meaning in the specification have that meaning"
  },
  {
   "property": "C81",
   "status": "partial",
   "theorems": [
    "Sadl.Props.C81_actions_from",
    "Sadl.Props.C81_actions_partial",
    "Sadl.Props.C81_refuted_patch",
    "Sadl.Props.C81_refuted_int64",
    "Sadl.Props.C81_refuted_description",
    "Sadl.Props.C81_refuted_array",
    "Sadl.Props.C81_refuted_digits",
    "Sadl.Props.C81_refuted_inline_body",
    "Sadl.Props.C81_refuted_media",
    "Sadl.Props.C81_refuted_inline_exception"
   ],
   "note": "false as stated (C81_refuted_*: PATCH, 64 bit parameters, descriptions, items and digits of parameters, inline bodies, documents without media types, inline exceptions). Proved: operations and actions correspond for five methods, and which parts are kept"
  },
  {
   "property": "C82",
   "status": "partial",
   "theorems": [
    "Sadl.Props.C82_order_partial",
    "Sadl.Props.C82_refuted_success",
    "Sadl.Props.C82_refuted_properties"
   ],
   "note": "false as stated (C82_refuted_success: two successful responses; C82_refuted_properties: an invalid property). Proved for the order of schemas, paths and responses when each operation has at most one successful response"
  },
  {
   "property": "C83",
   "status": "proved",
   "theorems": [
    "Sadl.Props.C83_generates_iff",
    "Sadl.Props.C83_no_crash",
    "Sadl.Props.C83_mirrors",
    "Sadl.Props.C83_refuted_bool"
   ],
   "note": "exact characterisation; that every accepted source gets a server is false (C83_refuted_bool)"
  },
  {
   "property": "C84",
   "status": "proved",
   "theorems": [
    "Sadl.Props.C84_compiles_iff",
    "Sadl.Props.C84_refuted_no_new_variable",
    "Sadl.Props.C84_refuted_declared_twice",
    "Sadl.Props.C84_refuted_unused",
    "Sadl.Props.C84_refuted_undeclared",
    "Sadl.Props.C84_refuted_timestamp",
    "Sadl.Props.C84_refuted_no_action",
    "Sadl.Props.C84_refuted_exception"
   ],
   "note": "exact characterisation; that every generated server compiles is false (C84_refuted_*: no new variable, declared twice, unused, undeclared, no timestamps, no actions, exceptions of union types)"
  },
  {
   "property": "C85",
   "status": "proved",
   "theorems": [
    "Sadl.Props.C85_handlers",
    "Sadl.Props.C85_refuted_not_a_number",
    "Sadl.Props.C85_refuted_range",
    "Sadl.Props.C85_refuted_default"
   ],
   "note": "exact characterisation for servers that compile; that malformed or too great numbers are refused and that text defaults are delivered is false (C85_refuted_*)"
  },
  {
   "property": "C86",
   "status": "proved",
   "theorems": [
    "Sadl.Props.C86_generates_iff",
    "Sadl.Props.C86_no_crash",
    "Sadl.Props.C86_mirrors"
   ],
   "note": "exact characterisation"
  },
  {
   "property": "C87",
   "status": "proved",
   "theorems": [
    "Sadl.Props.C87_compiles_iff",
    "Sadl.Props.C87_refuted_service",
    "Sadl.Props.C87_refuted_unused",
    "Sadl.Props.C87_refuted_status",
    "Sadl.Props.C87_refuted_query",
    "Sadl.Props.C87_refuted_header",
    "Sadl.Props.C87_refuted_body"
   ],
   "note": "exact characterisation; that every generated client compiles is false (C87_refuted_*: service not called Crudl, unused import, equal statuses, decimal query parameters, headers that are not text, bodies without a server)"
  },
  {
   "property": "C88",
   "status": "proved",
   "theorems": [
    "Sadl.Props.C88_calls",
    "Sadl.Props.C88_refuted_path",
    "Sadl.Props.C88_refuted_query_name",
    "Sadl.Props.C88_refuted_float",
    "Sadl.Props.C88_refuted_header"
   ],
   "note": "exact characterisation for clients that compile; that path values are put in the URL, query values sent under the name of their parameter, numbers formatted and headers sent is false (C88_refuted_*)"
  },
  {
   "property": "C89",
   "status": "proved",
   "theorems": [
    "Sadl.Props.C89_untouched",
    "Sadl.Props.C89_protected",
    "Sadl.Props.C89_changed",
    "Sadl.Props.C89_ok_iff",
    "Sadl.Props.C89_written",
    "Sadl.Props.C89_crash_iff",
    "Sadl.Props.C89_crash_files",
    "Sadl.Props.C89_service",
    "Sadl.Props.C89_package",
    "Sadl.Props.C89_path",
    "Sadl.Props.C89_place",
    "Sadl.Props.C89_generates_iff",
    "Sadl.Props.C89_refuted_atomic"
   ],
   "note": "exact characterisation; that an error means that nothing was written is false (C89_refuted_atomic)"
  },
  {
   "property": "C90",
   "status": "proved",
   "theorems": [
    "Sadl.Props.C90_type",
    "Sadl.Props.C90_unique",
    "Sadl.Props.C90_crashes_iff",
    "Sadl.Props.C90_all_iff",
    "Sadl.Props.C90_refuted_cycle",
    "Sadl.Props.C90_refuted_box",
    "Sadl.Props.C90_example"
   ],
   "note": "The Java type of every field, variant, input and output of an accepted source is exactly the one of Spec/Java.lean (primitive when required, boxed when optional, List/Map, own class, transparent for named scalars); there is no answer, and a crash, exactly when some named array or map contains itself. Condition: no type is called like Java's boxes (Boolean, Integer, ...), as C90_refuted_box shows. The naive claim that every accepted source has Java types is refuted (C90_refuted_cycle)."
  },
  {
   "property": "C91",
   "status": "proved",
   "theorems": [
    "Sadl.Props.C91_mirrors",
    "Sadl.Props.C91_kinds",
    "Sadl.Props.C91_example",
    "Sadl.Props.C91_refuted_lombok",
    "Sadl.Props.C91_refuted_required"
   ],
   "note": "Exact description of the classes (Spec/Java.lean JavaBodyFor): members, annotations, declared types, classes inside. The losses are part of the description and shown on examples: bounds of required numbers and the requiredness of named arrays are not said, with lombok the inner classes are missing, and members that are structs are used with the type Struct, which does not exist."
  },
  {
   "property": "C92",
   "status": "proved",
   "theorems": [
    "Sadl.Props.C92_generates_iff",
    "Sadl.Props.C92_refuted_package",
    "Sadl.Props.C92_refuted_inner"
   ],
   "note": "Exact condition (JavaReady): every member has a Java type, no field is called package, no inner class is called like its class, no empty names where they matter, the unit of a unit value is a type whose Java name is the name of a type. Refutations of 'every accepted type can be generated' given as examples."
  },
  {
   "property": "C93",
   "status": "proved",
   "theorems": [
    "Sadl.Props.C93_files",
    "Sadl.Props.C93_complete",
    "Sadl.Props.C93_protected",
    "Sadl.Props.C93_changed",
    "Sadl.Props.C93_ok_iff",
    "Sadl.Props.C93_written",
    "Sadl.Props.C93_generates_iff",
    "Sadl.Props.C93_place",
    "Sadl.Props.C93_package",
    "Sadl.Props.C93_packages",
    "Sadl.Props.C93_refuted_domain",
    "Sadl.Props.C93_example",
    "Sadl.Props.C93_refuted_collision"
   ],
   "note": "Exact characterisation of the files: which there are, where they go, which may not change, when generation reports no error and what is in them then. The files Util.java and Timestamp.java are only said to be allowed, not exactly when they appear. Naive expectations refuted: the setting domain is ignored (C93_refuted_domain), and two types whose names differ only in the case of the first letter share a file without an error (C93_refuted_collision)."
  },
  {
   "property": "C94",
   "status": "proved",
   "theorems": [
    "Sadl.Props.C94_generates_iff",
    "Sadl.Props.C94_generates_plain",
    "Sadl.Props.C94_mirrors",
    "Sadl.Props.C94_example",
    "Sadl.Props.C94_refuted_default",
    "Sadl.Props.C94_refuted_name"
   ],
   "note": "Exact condition and exact description. C94_refuted_default: an input whose default is an array makes the whole server disappear with an error. C94_refuted_name: with the setting name, the methods refer to a member that is not declared."
  },
  {
   "property": "C95",
   "status": "proved",
   "theorems": [
    "Sadl.Props.C95_generates_iff",
    "Sadl.Props.C95_generates_plain",
    "Sadl.Props.C95_mirrors",
    "Sadl.Props.C95_refuted_patch",
    "Sadl.Props.C95_refuted_anonymous",
    "Sadl.Props.C95_refuted_unnamed"
   ],
   "note": "Exact condition and exact description. Refuted: an action with PATCH (or another method) or one without a name that has outputs makes the whole client disappear with an error (C95_refuted_patch, C95_refuted_unnamed), and a POST or PUT without a body refers to a member anonymous that does not exist (C95_refuted_anonymous)."
  },
  {
   "property": "C96",
   "status": "proved",
   "theorems": [
    "Sadl.Props.C96_request",
    "Sadl.Props.C96_notSent",
    "Sadl.Props.C96_response",
    "Sadl.Props.C96_null",
    "Sadl.Props.C96_exception",
    "Sadl.Props.C96_failure",
    "Sadl.Props.C96_example",
    "Sadl.Props.C96_refuted_status",
    "Sadl.Props.C96_refuted_500",
    "Sadl.Props.C96_refuted_instant"
   ],
   "note": "Client and server as programs over a small semantics of the HTTP library (Spec/JavaWire.lean): values are opaque, null is explicit; that values survive JSON and text is not modelled. The conditions are needed: C96_refuted_status (two exceptions with one status), C96_refuted_500 (an exception with status 500), C96_refuted_instant (a null instant in a header), C96_notSent (a null path variable)."
  },
  {
   "property": "C97",
   "status": "partial",
   "theorems": [
    "Sadl.Props.C97_refused_iff",
    "Sadl.Props.C97_files_partial",
    "Sadl.Props.C97_order",
    "Sadl.Props.C97_smithy_paths",
    "Sadl.Props.C97_smithy_expand_partial",
    "Sadl.Props.C97_smithy_expand_example",
    "Sadl.Props.C97_smithy_model",
    "Sadl.Props.C97_example",
    "Sadl.Props.C97_example_searchable",
    "Sadl.Props.C97_refuted_unreadable",
    "Sadl.Props.C97_refuted_directory",
    "Sadl.Props.C97_refuted_twice"
   ],
   "note": "Proved when every directory can be read and no directory is named like a file of a format. Otherwise false: C97_refuted_unreadable (the error of the search is dropped, with the files after it), C97_refuted_directory, C97_refuted_twice (a file given and in a given directory is read twice)."
  },
  {
   "property": "C98",
   "status": "partial",
   "theorems": [
    "Sadl.Props.C98_route",
    "Sadl.Props.C98_request",
    "Sadl.Props.C98_exchange",
    "Sadl.Props.C98_example",
    "Sadl.Props.C98_refuted_zero"
   ],
   "note": "Proved for actions whose inputs are in the body or in the query under their own names, and values that can be sent (C98_example shows one). What a user would expect of every action is false: C88_refuted_path, C88_refuted_query_name, C88_refuted_float, C88_refuted_header (those inputs never arrive), C98_refuted_zero (a zero arrives as the default)."
  },
  {
   "property": "C99",
   "status": "partial",
   "theorems": [
    "Sadl.Props.C99_known",
    "Sadl.Props.C99_imported_partial",
    "Sadl.Props.C99_sorted",
    "Sadl.Props.C99_grow",
    "Sadl.Props.C99_util",
    "Sadl.Props.C99_timestamp_partial",
    "Sadl.Props.C99_example",
    "Sadl.Props.C99_refuted_bounds",
    "Sadl.Props.C99_refuted_creator",
    "Sadl.Props.C99_refuted_timestamp",
    "Sadl.Props.C99_refuted_clash"
   ],
   "note": "C99_known, C99_sorted and C99_grow are proved for all sources; C99_imported_partial, C99_util and C99_timestamp_partial for all accepted sources that mention BigDecimal and Instant only if they define them. The full statement (every class that is referred to can be found) is false: C99_refuted_bounds (@Min, @Max, @DecimalMin, @DecimalMax are never imported), C99_refuted_creator (@JsonCreator of unit values), C99_refuted_timestamp (the class Timestamp is in another package), C99_refuted_clash (a class imports a class of its own name)."
  },
  {
   "property": "C100",
   "status": "partial",
   "theorems": [
    "Sadl.Props.C100_lexes_partial",
    "Sadl.Props.C100_written_partial",
    "Sadl.Props.C100_example",
    "Sadl.Props.C100_refuted_quote",
    "Sadl.Props.C100_refuted_return"
   ],
   "note": "C100_lexes_partial and C100_written_partial are proved for all accepted sources whose names and texts can be written in Java (PlainSource) and all such settings, for every Java file; C100_example meets the hypotheses with 11 files. The full statement, without PlainSource, is false: C100_refuted_quote (values of enum symbols are written without escaping), C100_refuted_return (a carriage return within a comment ends the comment for Java). pom.xml, which is XML, is not covered."
  },
  {
   "property": "C101",
   "status": "partial",
   "theorems": [
    "Sadl.Props.C101_lexes_partial",
    "Sadl.Props.C101_written_partial",
    "Sadl.Props.C101_example",
    "Sadl.Props.C101_refuted_quote",
    "Sadl.Props.C101_refuted_path"
   ],
   "note": "C101_lexes_partial and C101_written_partial are proved for all accepted sources whose names, paths, headers and enum values can be written in Go (GoNamesSource) and all such settings, for the types, the server and the client; C101_example meets the hypotheses with all three. The names of query parameters and the defaults may be any text. The full statement, without GoNamesSource, is false: C101_refuted_quote (values of enum symbols are written without escaping), C101_refuted_path (so are paths)."
  },
  {
   "property": "C102",
   "status": "proved",
   "theorems": [
    "Sadl.Props.C102_any",
    "Sadl.Props.C102_names",
    "Sadl.Props.C102_go",
    "Sadl.Props.C102_java",
    "Sadl.Props.C102_example",
    "Sadl.Props.C102_refuted_action"
   ],
   "note": "C102_names for all accepted sources with includes of any depth; C102_any is the same for an arbitrary predicate on names, texts and comments. C102_go and C102_java use it to replace the assumptions of C101 and C100 about the model by assumptions about the tokens. C102_refuted_action: the name of an action need not be a word of the source, it may come from its path; C102_example meets the hypotheses."
  },
  {
   "property": "C103",
   "status": "partial",
   "theorems": [
    "Sadl.Props.C103_result",
    "Sadl.Props.C103_returns",
    "Sadl.Props.C103_accepted_partial",
    "Sadl.Props.C103_refuted_recursive",
    "Sadl.Props.C103_refuted_bare",
    "Sadl.Props.C103_refuted_missing",
    "Sadl.Props.C103_example"
   ],
   "note": "C103_result and C103_returns for all models: what is collected is exact whenever the collection returns, and it returns exactly for models without recursion and without dangling references; C103_accepted_partial is both for accepted sources. It does not return for every accepted source: C103_refuted_recursive (a recursive type, forever), C103_refuted_bare (an array of bare maps, crash), C103_refuted_missing (a union with an undefined variant, crash). C103_example meets the hypotheses."
  },
  {
   "property": "C104",
   "status": "proved",
   "theorems": [
    "Sadl.Props.C104_answers",
    "Sadl.Props.C104_inside",
    "Sadl.Props.C104_example"
   ],
   "note": "C104_answers for all models, archives and paths; C104_example shows a file, the index page, a file outside of the directory and a path that ends with .json."
  },
  {
   "property": "C105",
   "status": "partial",
   "theorems": [
    "Sadl.Props.C105_undisturbed_partial",
    "Sadl.Props.C105_sequential_partial",
    "Sadl.Props.C105_safe_partial",
    "Sadl.Props.C105_refuted_empty",
    "Sadl.Props.C105_refuted_wrong"
   ],
   "note": "C105_undisturbed_partial and C105_sequential_partial: the whole document for every request that is not interleaved with others while it copies, whatever happens before and after; C105_safe_partial for all schedules. Concurrent requests are not answered correctly: C105_refuted_empty (for every document that is not empty, one of two requests can get nothing), C105_refuted_wrong (the right number of wrong bytes)."
  },
  {
   "property": "C106",
   "status": "partial",
   "theorems": [
    "Sadl.Props.C106_kept",
    "Sadl.Props.C106_history",
    "Sadl.Props.C106_sound_partial",
    "Sadl.Props.C106_example",
    "Sadl.Props.C106_refuted_status",
    "Sadl.Props.C106_refuted_crash",
    "Sadl.Props.C106_refuted_panic",
    "Sadl.Props.C106_paths"
   ],
   "note": "C106_history says exactly what is at the path after any number of runs; C106_kept, C106_paths; C106_sound_partial under the assumptions that responses are the archive and writes are finished. Without them it is false: C106_refuted_status (an error page is cached for good), C106_refuted_crash (a piece of the archive is cached for good after a crash or a full disk), C106_refuted_panic. C106_example meets the hypotheses."
  },
  {
   "property": "C107",
   "status": "partial",
   "theorems": [
    "Sadl.Props.C107_safe_partial",
    "Sadl.Props.C107_only",
    "Sadl.Props.C107_schema",
    "Sadl.Props.C107_name",
    "Sadl.Props.C107_name_dots",
    "Sadl.Props.C107_example",
    "Sadl.Props.C107_refuted_components",
    "Sadl.Props.C107_refuted_null",
    "Sadl.Props.C107_refuted_type",
    "Sadl.Props.C107_refuted_dangling",
    "Sadl.Props.C107_refuted_wildcard",
    "Sadl.Props.C107_refuted_inline",
    "Sadl.Props.C107_refuted_parameter",
    "Sadl.Props.C107_refuted_hyphen"
   ],
   "note": "C107_safe_partial: no crash on any file that is safe, where Spec/OpenApiSafe.lean says which are; C107_only: whatever is imported was safe, so that files that are not always end in an error or a crash; C107_schema: for schemas, exactly those that are not safe crash. C107_name, C107_name_dots for the name. Safe is not the same as valid: C107_refuted_components, _null, _type, _dangling, _wildcard, _inline, _parameter, _hyphen are valid documents on which the import crashes. C107_example meets the hypotheses. Not proved: that every valid file that is not safe crashes; some end in an error, depending on what is met first."
  },
  {
   "property": "C108",
   "status": "partial",
   "theorems": [
    "Sadl.Props.C108_alone_partial",
    "Sadl.Props.C108_sequential_partial",
    "Sadl.Props.C108_finishes",
    "Sadl.Props.C108_example",
    "Sadl.Props.C108_example_after_failure",
    "Sadl.Props.C108_refuted_foreign",
    "Sadl.Props.C108_refuted_lost",
    "Sadl.Props.C108_refuted_exchanged"
   ],
   "note": "C108_alone_partial and C108_sequential_partial for calls that do not overlap, after any history; C108_finishes. Calls at the same time are mixed up: C108_refuted_foreign, C108_refuted_lost, C108_refuted_exchanged. C108_example and C108_example_after_failure meet the hypotheses."
  },
  {
   "property": "C109",
   "status": "partial",
   "theorems": [
    "Sadl.Props.C109_found_iff",
    "Sadl.Props.C109_crashes_iff",
    "Sadl.Props.C109_checked_partial",
    "Sadl.Props.C109_example",
    "Sadl.Props.C109_refuted_named",
    "Sadl.Props.C109_refuted_twice",
    "Sadl.Props.C109_refuted_crash"
   ],
   "note": "C109_found_iff says exactly which type specification FindExampleType gives for a dotted target, C109_crashes_iff exactly when it crashes, and C109_checked_partial that for an example of an accepted source it is the type that the example was checked against, if field names are not repeated in a struct. Refuted as stated: fields of a struct type that is referred to by name are not found (C109_refuted_named), with a repeated field name another type is found (C109_refuted_twice), and the search crashes for an action that does not say what it responds (C109_refuted_crash)."
  },
  {
   "property": "C110",
   "status": "partial",
   "theorems": [
    "Sadl.Props.C110_types_partial",
    "Sadl.Props.C110_operations_partial",
    "Sadl.Props.C110_not_foremost",
    "Sadl.Props.C110_refuted_types",
    "Sadl.Props.C110_refuted_second",
    "Sadl.Props.C110_refuted_header"
   ],
   "note": "C110_types_partial: the schema of a type shows exactly the last example of the type. C110_operations_partial: the operation of the foremost action of a path shows, in its parameters, the body of its request and the body of its response, exactly what the examples give for them, by name; C110_not_foremost: the operations of the other actions show nothing. Refuted as stated: of several examples of a type only the last is kept (C110_refuted_types), examples of the request of an action that is not the first of its path are dropped (C110_refuted_second), and the value for a header of a response is shown as an example of the request parameter of that name (C110_refuted_header)."
  },
  {
   "property": "C111",
   "status": "partial",
   "theorems": [
    "Sadl.Props.C111_head",
    "Sadl.Props.C111_valid_iff",
    "Sadl.Props.C111_refused",
    "Sadl.Props.C111_renamed",
    "Sadl.Props.C111_kept_partial",
    "Sadl.Props.C111_refuted_unnamed",
    "Sadl.Props.C111_refuted_license",
    "Sadl.Props.C111_refuted_path",
    "Sadl.Props.C111_refuted_version",
    "Sadl.Props.C111_refuted_name"
   ],
   "note": "C111_head: title, description, version, servers and license of the document are those of the schema. C111_valid_iff: exactly the documents of complete schemas pass the checks of the import once they are written and read (a name, paths that begin with a slash, a name for the license if it has a place); C111_refused: all others are refused with an error. C111_kept_partial: what is read back has the name, comment, version, server and license of the schema; C111_renamed: a name that is not an identifier becomes the beginning of the comment. Refuted as stated: documents of accepted sources are refused (C111_refuted_unnamed, _license, _path), and a schema without version or server comes back with the version dev and the server http://localhost:8000 (C111_refuted_version); a name that is not an identifier is lost (C111_refuted_name)."
  },
  {
   "property": "C112",
   "status": "partial",
   "theorems": [
    "Sadl.Props.C112_load_partial",
    "Sadl.Props.C112_unversioned",
    "Sadl.Props.C112_refuted_default",
    "Sadl.Props.C112_refuted_huge",
    "Sadl.Props.C112_refuted_imported"
   ],
   "note": "C112_load_partial: the JSON text printed for a model is loaded, and gives the same schema (every type, example, operation and action with everything they say; annotations up to order), with defaults and examples as JSON makes them (decimals become float64, pointers to texts become texts), and the same names are found. C112_unversioned: a model without SADL version is refused when loaded. Assumed of the Go library: the numbers of the schema are printed as JSON numbers and parsed back. Refuted as stated: a number as default comes back as a float64, so that the Go server of the loaded model has the default 0 (C112_refuted_default); a number too large for a float64 makes loading fail (C112_refuted_huge); models imported from GraphQL and OpenAPI have no version and cannot be loaded (C112_refuted_imported, imported_graphql, imported_openapi)."
  },
  {
   "property": "C113",
   "status": "partial",
   "theorems": [
    "Sadl.Props.C113_document_partial",
    "Sadl.Props.C113_operations",
    "Sadl.Props.C113_refuted_null",
    "Sadl.Props.C113_refuted_empty_enum",
    "Sadl.Props.C113_refuted_overflow",
    "Sadl.Props.C113_schema_partial"
   ],
   "note": "C113_document_partial: the JSON text printed for an OpenAPI document (every path, operation, parameter, body, response, header and schema, nested to any depth up to 4990) is read as the same document, with maps in the order of their keys, empty lists of values and maps of properties as missing ones, and examples as JSON makes them. C113_schema_partial: this holds for the document of every schema without examples whose bounds are printed so that they can be read. C113_operations: each operation is found again under its path and method.  Not modelled: additionalProperties after reading, untyped data that nothing looks at. Assumed of the Go library: the numbers of the document are printed as JSON numbers and parsed back. Refuted as stated: an enumeration without values becomes a string (C113_refuted_empty_enum); a bound too large for a float64 makes printing fail (C113_refuted_overflow); a file that holds null makes the import panic (C113_refuted_null)."
  },
  {
   "property": "C114",
   "status": "partial",
   "theorems": [
    "Sadl.Props.C114_document_partial",
    "Sadl.Props.C114_file_partial",
    "Sadl.Props.C114_refuted_unnamed",
    "Sadl.Props.C114_refuted_enum"
   ],
   "note": "C114_file_partial: a schema of kept types and actions (C47, C63), without examples, named and with bounds that print and parse back, is exported, printed as JSON, read, checked and imported, and comes back with the same types and actions, and, if its name is an identifier, the same name, comment, version, server and license; C114_document_partial: the same with examples, when the document can be printed as C113 says. Assumed of the Go library: numbers are printed as JSON numbers and parsed back. Refuted as stated: a schema with an empty name is refused (C114_refuted_unnamed); an enumeration without symbols comes back as a string (C114_refuted_enum); the refutations of C47, C63 and C111 are about the same path."
  },
  {
   "property": "C115",
   "status": "partial",
   "theorems": [
    "Sadl.Props.C115_rules",
    "Sadl.Props.C115_variables",
    "Sadl.Props.C115_further_iff",
    "Sadl.Props.C115_identifiers",
    "Sadl.Props.C115_refuted_variable",
    "Sadl.Props.C115_refuted_twice",
    "Sadl.Props.C115_refuted_status",
    "Sadl.Props.C115_refuted_base"
   ],
   "note": "C115_rules: for every accepted source, every operation of the exported document has a response, every response a description, every parameter a name, one of the places and a schema, and a parameter in the path is required. C115_variables: a parameter in the path has a variable there, if the base path has no question mark. C115_identifiers: operation ids are unique. C115_further_iff: the parameters are different, every variable of the path has a parameter and responses are listed under statuses of HTTP, exactly if the exported actions are orderly. Refuted as stated: a variable without input (C115_refuted_variable), the same header twice (C115_refuted_twice) and the status 7 (C115_refuted_status) are accepted and exported; a question mark in the base path cuts the variable off (C115_refuted_base)."
  },
  {
   "property": "C116",
   "status": "partial",
   "theorems": [
    "Sadl.Props.C116_text_partial",
    "Sadl.Props.C116_source_partial",
    "Sadl.Props.C116_refuted_unnamed",
    "Sadl.Props.C116_refuted_server"
   ],
   "note": "C116_source_partial: the text printed for the document of an accepted source without examples (types nested to any depth up to 4988, bounds that the Go library prints so that they can be read) is JSON, and an OpenAPI 3.0 document - every object of the root, info, license, servers, paths, operations, parameters, bodies, responses, headers, media types, examples and schemas has only members OpenAPI allows, all it requires, each once and of the right kind - exactly if the schema is complete (C111) and gives no empty server. C116_text_partial: the same for every document that can be printed, with examples. Refuted as stated: an empty name leaves out the required title (C116_refuted_unnamed), an empty x_server the required url (C116_refuted_server)."
  },
  {
   "property": "C117",
   "status": "partial",
   "theorems": [
    "Sadl.C117_only",
    "Sadl.C117_shapes_partial",
    "Sadl.C117_head",
    "Sadl.C117_refuted_traits",
    "Sadl.C117_refuted_boolean",
    "Sadl.C117_refuted_uuid",
    "Sadl.C117_refuted_name",
    "Sadl.C117_refuted_length",
    "Sadl.C117_refuted_limits"
   ],
   "note": "C117_shapes_partial: every number, string, timestamp, blob, list, set, map, structure, union and enum shape that no operation has as its input or output becomes a type with its name, documentation, kind, limits of range and length (written as the importer expects them), pattern, traits as annotations (error, tags, deprecation, pagination, formats and values), members with their targets and whether they are required, elements and keys. C117_only: there are no other types. C117_head: name, version, namespace, base and metadata of the model. Refuted as stated: a boolean shape becomes a type of the type Boolean, which does not exist (C117_refuted_boolean); the traits of strings are lost (C117_refuted_traits); a string shape named UUID is left out (C117_refuted_uuid); the length of a list is always lost (C117_refuted_length); a range must be a decimal and a length a float64, so that of two equal limits one is always lost (C117_refuted_limits); a name in the metadata does not count (C117_refuted_name)."
  },
  {
   "property": "C118",
   "status": "partial",
   "theorems": [
    "Sadl.C118_only",
    "Sadl.C118_actions_partial",
    "Sadl.C118_operations",
    "Sadl.C118_refuted_body",
    "Sadl.C118_refuted_header",
    "Sadl.C118_refuted_output"
   ],
   "note": "C118_actions_partial: every operation with an HTTP binding becomes an action with its name (with a small first letter), documentation, annotations, method, path followed by the inputs in the query, status, the members of its input and output structures with their binding, type and whether they are required, or the whole structure as the body, and its errors with their status. C118_operations: every operation without binding becomes an operation with its inputs, outputs and errors. C118_only: there are no other actions and operations. Refuted as stated: a structure without bindings becomes the body, but its type is left out, so that the body has a type that does not exist (C118_refuted_body); bindings to headers only are lost (C118_refuted_header); an output structure named like a shape of the prelude is taken for it (C118_refuted_output)."
  },
  {
   "property": "C119",
   "status": "partial",
   "theorems": [
    "Sadl.C119_panics",
    "Sadl.C119_safe_partial",
    "Sadl.C119_refuted_kind",
    "Sadl.C119_refuted_unit",
    "Sadl.C119_refuted_trait"
   ],
   "note": "C119_panics: the import panics exactly if the service is clear and some shape that is no input or output of an operation is not safe: of an unknown kind, a list or map without its member, with a trait that is a shape but no trait, or an operation with a missing input, output or error. C119_safe_partial: otherwise the result is a model or an error. Refuted as stated: an intEnum (C119_refuted_kind), the unit as input of an operation without binding (C119_refuted_unit), and a trait that is defined but not as a trait (C119_refuted_trait) make it panic."
  },
  {
   "property": "C120",
   "status": "partial",
   "theorems": [
    "Sadl.C120_examples_partial",
    "Sadl.C120_refuted_target"
   ],
   "note": "C120_examples_partial: the examples of the schema are exactly the inputs and outputs of the examples of the operations of the model, with their titles, documentation and values. Missing: their targets. Refuted as stated: the target is made of the name with its namespace, so that it is no name of SADL whenever the operations have one (C120_refuted_target)."
  },
  {
   "property": "C121",
   "status": "partial",
   "theorems": [
    "Sadl.Props.C121_examples_partial",
    "Sadl.Props.C121_refuted_dropped"
   ],
   "note": "C121_examples_partial: the examples of the model are exactly those that the schemas of the components and of the headers and JSON contents of the expected responses give, at any depth. Refuted as stated: examples of parameters, of requests and of the contents of responses themselves are dropped (C121_refuted_dropped)."
  },
  {
   "property": "C122",
   "status": "proved",
   "theorems": [
    "Sadl.Props.C122_none"
   ],
   "note": "C122_none: no document that is imported gives a model with an example. This also says that the examples of the document are lost, unlike those of an OpenAPI document (C121)."
  },
  {
   "property": "C123",
   "status": "partial",
   "theorems": [
    "Sadl.Props.C123_back_partial",
    "Sadl.Props.C123_refuted_lost"
   ],
   "note": "C123_back_partial: after export and import the examples are exactly the last examples of the named types that have one, with the same values. Refuted as stated: names of examples are lost, and examples of requests and responses do not come back (C123_refuted_lost), nor do the earlier ones of several examples of a type (C110_refuted_types)."
  },
  {
   "property": "C124",
   "status": "partial",
   "theorems": [
    "Sadl.Props.C124_shown_partial",
    "Sadl.Props.C124_refuted_dropped"
   ],
   "note": "C124_shown_partial: the shape of every operation shows exactly the examples of its request by name, each with its input, its comment and, as output, the last example of the response with that name. Refuted as stated: an example of a response without one of the request with the same name is not shown (C124_refuted_dropped). Not covered: the errors added to the examples, and actions without a name or with the same name as another up to capitalisation."
  }
 ]
}