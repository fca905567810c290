{
 "C01": [
  "proved",
  "for all schemas"
 ],
 "C02": [
  "proved",
  "for all accepted schemas and names"
 ],
 "C03": [
  "proved",
  "acceptance <=> independent inductive conformance relation; rejection excludes conformance; verdict unique"
 ],
 "C04": [
  "proved",
  "reordering at every nesting depth; rejection too where validation terminates"
 ],
 "C05": [
  "partial",
  "false for Union types and for a type List defined as itself (C05_union_runs_forever, C05_refuted, C05_refuted_list). C05_exact_partial and C05_accepted_partial: exactly when validation never returns, for the types of every accepted source: the value gets to a part whose type is defined as itself, all parts before it being fine; in all other cases it accepts or rejects. C05_terminates_partial: always returns for schemas without Union"
 ],
 "C06": [
  "partial",
  "explicit bounds proved exact; the implied integer range is not enforced by the code (C06_int_range_not_enforced, C06_refuted)"
 ],
 "C07": [
  "proved",
  "regexp matching abstract (Lib)"
 ],
 "C08": [
  "proved",
  ""
 ],
 "C09": [
  "proved",
  ""
 ],
 "C10": [
  "proved",
  ""
 ],
 "C11": [
  "proved",
  "exact; the other 32 bytes need not be hexadecimal digits (C11_refuted)"
 ],
 "C12": [
  "partial",
  "holds when the printed text has the shape the validator requires; false for short numbers (C12_refuted)"
 ],
 "C36": [
  "partial",
  "exact for UTC timestamps with four-digit years; offsets are dropped (C36_refuted)"
 ],
 "C37": [
  "partial",
  "round trip for units without spaces; false otherwise (C37_refuted); decimal printing is a parameter with recorded assumptions"
 ],
 "C38": [
  "partial",
  "put/get laws proved; multi-key get falls through non-maps (C38_refuted) C38_get_iff says exactly what is returned for every path (keys that are not there are skipped), C38_get_only that it is what some of the keys, among them the last, lead to, C38_typed extends this to the accessors by kind."
 ],
 "C39": [
  "partial",
  "each conversion characterised; the array accessors disagree with each other (C39_refuted) C39_fallback, C39_asInt_whole and C39_map_agrees cover the other kinds, whole floats and the accessors of maps."
 ],
 "C40": [
  "partial",
  "words kept in order, width respected when words fit; false in the cases of C40_refuted_*"
 ],
 "C41": [
  "partial",
  "ASCII first byte; false for multi-byte first characters (C41_refuted)"
 ],
 "C42": [
  "partial",
  "no overwrite proved over all histories; an error does not stop later writes (C42_refuted)"
 ],
 "C43": [
  "partial",
  "exact for single-valued parameters; false in the cases of C43_refuted_*"
 ],
 "C13": [
  "partial",
  "reflexivity proved; symmetry and 'same values' proved on the fragment the code compares, refuted outside it (C13_refuted_*)"
 ],
 "C14": [
  "partial",
  "returns for acyclic references; refuted for recursive arrays and for built-in containers (C14_refuted_*)"
 ],
 "C15": [
  "partial",
  "conversion and failure condition characterised for all models; 'no inline enum left' needs non-empty enums (C15_refuted)"
 ],
 "C16": [
  "partial",
  "proved when made-up names are distinct and new; refuted otherwise (C16_refuted_*)"
 ],
 "C17": [
  "partial",
  "false (C17_refuted); proved what a failure can have changed"
 ],
 "C18": [
  "proved",
  "terminates for every token sequence (included files: provided parsing them does); loops without bound agree with the model's"
 ],
 "C19": [
  "partial",
  "false (C19_refuted_*: source ending inside an operation, operation options); proved for sources without operation directives (C19_no_crash_partial)"
 ],
 "C20": [
  "proved",
  "for every history of reads and push-backs; push-back at the end of the source excluded, see C20_end_of_source_excluded"
 ],
 "C24": [
  "proved",
  ""
 ],
 "C25": [
  "proved",
  "exact; the expectation that the item ends after {name} is false (C25_refuted), and true when no item has a second equals sign (C25_query_whole_item)"
 ],
 "C27": [
  "proved",
  ""
 ],
 "C28": [
  "partial",
  "false when no response type and no explicit name (C28_refuted); default and explicit naming proved"
 ],
 "C29": [
  "partial",
  "false for comments made of blanks (C29_refuted); proved for trimmed comments"
 ],
 "C32": [
  "proved",
  "relative to the number and string conversions of the Go library"
 ],
 "C21": [
  "partial",
  "false for union variants, keys of maps with Any items, exceptions of actions without expect, and nested struct types (C21_refuted_*); C21_references_partial proves every reference that is checked"
 ],
 "C22": [
  "partial",
  "false for fields of inline struct types (C22_refuted); proved for the fields of struct types (C22_defaults_partial)"
 ],
 "C23": [
  "partial",
  "false for fields of inline struct types (C23_refuted); proved for types and fields of struct types (C23_pattern_or_values_partial)"
 ],
 "C26": [
  "proved",
  "for every accepted source; the lexer is assumed not to deliver empty symbols"
 ],
 "C34": [
  "partial",
  "false: unknown members of HTTP examples and inline constraints of parameters are not checked (C34_refuted_*); proved for type targets, required members, and members against the named type"
 ],
 "C52": [
  "proved",
  "also for permutations of examples and HTTP actions"
 ],
 "C53": [
  "proved",
  "both directions, against the specification in Spec/Valid.lean; assumes the lexer delivers no empty symbols"
 ],
 "C48": [
  "proved",
  "exact; UUID and Array never survive (C48_refuted)"
 ],
 "C49": [
  "proved",
  "for all integer statuses; statuses below 100 count as informational, above 599 as server"
 ],
 "C50": [
  "proved",
  "exact, for all scalars and configurations; the other scalars change (C50_refuted)"
 ],
 "C51": [
  "partial",
  "mixed formats and lists without known format refused, one format otherwise, no panic; unrecognised files are skipped silently instead of refused (C51_refuted); file system and IsValidFile abstract"
 ],
 "C30": [
  "proved",
  "Soundness, completeness and error behaviour of option lists against an independent notation (Spec/Options); and, for every parsed source, constraints suit the type of every definition and field at any depth."
 ],
 "C31": [
  "partial",
  "Proved: a source that does not end with a line comment and parses also parses, to the same schema, with a newline added (C31_added_partial, C31_accepted_partial for parsing with validation), hence removing the final newline never changes the schema: the shorter source parses to the same schema or does not parse (C31_removed_partial). Refuted as stated: a struct, enum or union definition at the very end needs its newline (C31_refuted), and a comment at the very end may be doubled (C31_refuted_comment)."
 ],
 "C35": [
  "partial",
  "What an include adds and refuses, for any files; termination only for include graphs without circles; circular includes diverge (C35_circle_diverges, C35_refuted)."
 ],
 "C33": [
  "partial",
  "Proved for every printable model (Spec/Printable, an explicit list of what each construct may carry). Refuted for others by accepted sources: field defaults, type annotations, UnitValue parameters, missing expect clauses and escaped patterns do not survive (C33_refuted_*)."
 ],
 "C44": [
  "partial",
  "C44_operations_partial: every GET/PUT/POST/DELETE action has an operation under its path and method that describes it; C44_no_other_operations, C44_duplicates(_error): sharing gives an error. False for PATCH and other methods, whose actions are dropped: C44_refuted_patch."
 ],
 "C45": [
  "partial",
  "C45_refs_partial: all references resolve for schemas satisfying RefSafe. False for enumerations written in place, Any, and maps of enumerations: C45_refuted."
 ],
 "C46": [
  "partial",
  "C46_returns_partial: schemas satisfying OasSafe export to a document or an error, with no bound on their size. C46_document_iff and C46_accepted_iff: exactly the schemas satisfying OasReady (a specification in terms of the schema alone) export to a document. False for arrays of Float64, actions without expected response, examples of responses of an action that is not the first on its path (panic) and types containing maps of themselves (no end): C46_refuted_*."
 ],
 "C47": [
  "partial",
  "C47_types_partial and C47_model_partial: the types satisfying TypeKept are the same after export and import, up to the order of types and fields. False for small integers, floats, maps, string types with symbol values, arrays of named string types: C47_refuted_*."
 ],
 "C54": [
  "proved",
  "against the grammar in Spec/Grammar.lean, which is written as inductive relations over tokens and marks what the parser tolerates beyond the documented notation; the lexer is not modelled"
 ],
 "C55": [
  "proved",
  "from C54"
 ],
 "C56": [
  "partial",
  "false as stated: a fraction conforms to an integer type but the schema refuses it, and lengths count bytes in the model but characters in OpenAPI (C56_refuted_*). Proved for schemas whose references and limits OpenAPI can express, without Bytes, for ASCII strings and, where there are integer types, whole numbers"
 ],
 "C57": [
  "partial",
  "false as stated: sizes of collections and the shape of UUIDs written in place are dropped (C57_refuted_*). Proved for schemas that avoid what the export weakens (Spec.Exact), for plain JSON values with ASCII strings"
 ],
 "C58": [
  "proved",
  "exact characterisation (C58_succeeds_iff), with the cause of every error and panic; the AST library smithylib is assumed to be an ordered map"
 ],
 "C59": [
  "partial",
  "false as stated: types based on Bool, Bytes, Timestamp, UnitValue or Any and actions without expect panic, built-in exception types give an error (C59_refuted_*). Proved for accepted sources without these"
 ],
 "C60": [
  "partial",
  "false as stated: collections, enumerations, Any and unit values written in place and unions of built-in types leave dangling references (C60_refuted*). Proved for schemas that refer only to scalars and to their own types"
 ],
 "C61": [
  "partial",
  "false as stated: sizes are lost in memory, limits through a file, array sizes, defaults, field and symbol comments, constraints and collections written at a field, UUIDs and annotations always (C61_refuted_*). Proved for schemas whose types avoid these (SmithyKept), with the values of a type unchanged"
 ],
 "C62": [
  "partial",
  "false as stated: required outputs and headers become optional, the base joins the path, query parameters are renamed in the path and an action with only header inputs gets a body (C62_refuted_*). Proved otherwise, up to the required flag and the base"
 ],
 "C63": [
  "partial",
  "false as stated: other methods are lost, the base joins the path, names lose digits (and the import panics for a path parameter with one), Int64 and Timestamp parameters change, required outputs become optional, bodies are renamed or lost, tags become a resource (C63_refuted_*). Proved for the actions that avoid these, up to the order of actions, outputs and exceptions"
 ],
 "C64": [
  "proved",
  "exact; accepted sources that cannot be generated exist (C64_refuted_*)"
 ],
 "C65": [
  "proved",
  "exact, for a service whose name is not that of a built-in type; accepted sources with bad Go exist (C65_refuted_*). Expressions inside functions are not checked, nor is the shadowing of predeclared names"
 ],
 "C66": [
  "proved",
  "for every accepted source for which types are generated (C64)"
 ],
 "C67": [
  "proved",
  "for values made of null, booleans, strings, numbers that the Go library prints and parses back, arrays and objects; C67_too_deep and C67_not_an_object show that the two conditions are needed"
 ],
 "C68": [
  "proved",
  "for the values JSON texts decode to"
 ],
 "C69": [
  "partial",
  "false as stated: the zero timestamp, the empty UUID, units with quotes, backslashes or control characters and infinite decimals (C69_refuted_*). Proved: the exact condition for UUIDs and units, UTC timestamps of the years 1000 to 9999 up to the millisecond, and decimals whose text is a JSON number"
 ],
 "C70": [
  "partial",
  "false as stated: values with a `=` are cut, go-server does not see the settings for go, and nothing is set if the section is not an object (C70_refuted_*). Proved for options without a second `=` and sections that are objects or missing"
 ],
 "C71": [
  "proved",
  "exact; accepted models that cannot be exported exist (C71_refuted)"
 ],
 "C72": [
  "partial",
  "false as stated: items of arrays and variants of unions are written under their SADL names, empty types give empty braces, and a type may have the name of a GraphQL scalar (C72_refuted_*). Proved: if names are names, comments are single lines and no type is empty, the text is a GraphQL document, valid exactly if the schema satisfies GqlSayable"
 ],
 "C73": [
  "proved",
  "for the syntax trees that graphql-go builds, its parser being a parameter; C73_nested_list shows that nested lists make the import panic"
 ],
 "C74": [
  "partial",
  "false as stated (C74_refuted: an Int64 becomes a Float64). Proved: the exact condition, under the conditions that make the text a document"
 ],
 "C75": [
  "proved",
  "exact; accepted models that crash exist (C75_refuted_*)"
 ],
 "C76": [
  "partial",
  "false as stated: values are not percent-encoded, Booleans are not shown, and a value in braces is replaced again (C76_refuted_*). Proved for values made of unreserved characters that are strings or numbers"
 ],
 "C77": [
  "partial",
  "false as stated (C77_refuted_status: an expected response is shown with the status of an exception). Proved: expected responses if no exception example has the same name; exceptions"
 ],
 "C78": [
  "partial",
  "false as stated (C78_refuted: of several request examples without names only the last is shown). Proved: one section for each name of a request example, actions in order; all are shown if names are distinct"
 ],
 "C79": [
  "proved",
  "exact; documents that crash exist (C79_refuted_*)"
 ],
 "C80": [
  "partial",
  "false as stated (C80_refuted_*: minimum and maximum, references to references, definitions named Decimal, constraints on items, maps). Proved: types correspond to definitions, and the ones whose schema has a meaning in the specification have that meaning"
 ],
 "C81": [
  "partial",
  "false as stated (C81_refuted_*: PATCH, 64 bit parameters, descriptions, items and digits of parameters, inline bodies, documents without media types, inline exceptions). Proved: operations and actions correspond for five methods, and which parts are kept"
 ],
 "C82": [
  "partial",
  "false as stated (C82_refuted_success: two successful responses; C82_refuted_properties: an invalid property). Proved for the order of schemas, paths and responses when each operation has at most one successful response"
 ],
 "C83": [
  "proved",
  "exact characterisation; that every accepted source gets a server is false (C83_refuted_bool)"
 ],
 "C84": [
  "proved",
  "exact characterisation; that every generated server compiles is false (C84_refuted_*: no new variable, declared twice, unused, undeclared, no timestamps, no actions, exceptions of union types)"
 ],
 "C85": [
  "proved",
  "exact characterisation for servers that compile; that malformed or too great numbers are refused and that text defaults are delivered is false (C85_refuted_*)"
 ],
 "C86": [
  "proved",
  "exact characterisation"
 ],
 "C87": [
  "proved",
  "exact characterisation; that every generated client compiles is false (C87_refuted_*: service not called Crudl, unused import, equal statuses, decimal query parameters, headers that are not text, bodies without a server)"
 ],
 "C88": [
  "proved",
  "exact characterisation for clients that compile; that path values are put in the URL, query values sent under the name of their parameter, numbers formatted and headers sent is false (C88_refuted_*)"
 ],
 "C89": [
  "proved",
  "exact characterisation; that an error means that nothing was written is false (C89_refuted_atomic)"
 ],
 "C90": [
  "proved",
  "The Java type of every field, variant, input and output of an accepted source is exactly the one of Spec/Java.lean (primitive when required, boxed when optional, List/Map, own class, transparent for named scalars); there is no answer, and a crash, exactly when some named array or map contains itself. Condition: no type is called like Java's boxes (Boolean, Integer, ...), as C90_refuted_box shows. The naive claim that every accepted source has Java types is refuted (C90_refuted_cycle)."
 ],
 "C91": [
  "proved",
  "Exact description of the classes (Spec/Java.lean JavaBodyFor): members, annotations, declared types, classes inside. The losses are part of the description and shown on examples: bounds of required numbers and the requiredness of named arrays are not said, with lombok the inner classes are missing, and members that are structs are used with the type Struct, which does not exist."
 ],
 "C92": [
  "proved",
  "Exact condition (JavaReady): every member has a Java type, no field is called package, no inner class is called like its class, no empty names where they matter, the unit of a unit value is a type whose Java name is the name of a type. Refutations of 'every accepted type can be generated' given as examples."
 ],
 "C93": [
  "proved",
  "Exact characterisation of the files: which there are, where they go, which may not change, when generation reports no error and what is in them then. The files Util.java and Timestamp.java are only said to be allowed, not exactly when they appear. Naive expectations refuted: the setting domain is ignored (C93_refuted_domain), and two types whose names differ only in the case of the first letter share a file without an error (C93_refuted_collision)."
 ],
 "C94": [
  "proved",
  "Exact condition and exact description. C94_refuted_default: an input whose default is an array makes the whole server disappear with an error. C94_refuted_name: with the setting name, the methods refer to a member that is not declared."
 ],
 "C95": [
  "proved",
  "Exact condition and exact description. Refuted: an action with PATCH (or another method) or one without a name that has outputs makes the whole client disappear with an error (C95_refuted_patch, C95_refuted_unnamed), and a POST or PUT without a body refers to a member anonymous that does not exist (C95_refuted_anonymous)."
 ],
 "C96": [
  "proved",
  "Client and server as programs over a small semantics of the HTTP library (Spec/JavaWire.lean): values are opaque, null is explicit; that values survive JSON and text is not modelled. The conditions are needed: C96_refuted_status (two exceptions with one status), C96_refuted_500 (an exception with status 500), C96_refuted_instant (a null instant in a header), C96_notSent (a null path variable)."
 ],
 "C97": [
  "partial",
  "Proved when every directory can be read and no directory is named like a file of a format. Otherwise false: C97_refuted_unreadable (the error of the search is dropped, with the files after it), C97_refuted_directory, C97_refuted_twice (a file given and in a given directory is read twice)."
 ],
 "C98": [
  "partial",
  "Proved for actions whose inputs are in the body or in the query under their own names, and values that can be sent (C98_example shows one). What a user would expect of every action is false: C88_refuted_path, C88_refuted_query_name, C88_refuted_float, C88_refuted_header (those inputs never arrive), C98_refuted_zero (a zero arrives as the default)."
 ],
 "C99": [
  "partial",
  "C99_known, C99_sorted and C99_grow are proved for all sources; C99_imported_partial, C99_util and C99_timestamp_partial for all accepted sources that mention BigDecimal and Instant only if they define them. The full statement (every class that is referred to can be found) is false: C99_refuted_bounds (@Min, @Max, @DecimalMin, @DecimalMax are never imported), C99_refuted_creator (@JsonCreator of unit values), C99_refuted_timestamp (the class Timestamp is in another package), C99_refuted_clash (a class imports a class of its own name)."
 ],
 "C100": [
  "partial",
  "C100_lexes_partial and C100_written_partial are proved for all accepted sources whose names and texts can be written in Java (PlainSource) and all such settings, for every Java file; C100_example meets the hypotheses with 11 files. The full statement, without PlainSource, is false: C100_refuted_quote (values of enum symbols are written without escaping), C100_refuted_return (a carriage return within a comment ends the comment for Java). pom.xml, which is XML, is not covered."
 ],
 "C101": [
  "partial",
  "C101_lexes_partial and C101_written_partial are proved for all accepted sources whose names, paths, headers and enum values can be written in Go (GoNamesSource) and all such settings, for the types, the server and the client; C101_example meets the hypotheses with all three. The names of query parameters and the defaults may be any text. The full statement, without GoNamesSource, is false: C101_refuted_quote (values of enum symbols are written without escaping), C101_refuted_path (so are paths)."
 ],
 "C102": [
  "proved",
  "C102_names for all accepted sources with includes of any depth; C102_any is the same for an arbitrary predicate on names, texts and comments. C102_go and C102_java use it to replace the assumptions of C101 and C100 about the model by assumptions about the tokens. C102_refuted_action: the name of an action need not be a word of the source, it may come from its path; C102_example meets the hypotheses."
 ],
 "C103": [
  "partial",
  "C103_result and C103_returns for all models: what is collected is exact whenever the collection returns, and it returns exactly for models without recursion and without dangling references; C103_accepted_partial is both for accepted sources. It does not return for every accepted source: C103_refuted_recursive (a recursive type, forever), C103_refuted_bare (an array of bare maps, crash), C103_refuted_missing (a union with an undefined variant, crash). C103_example meets the hypotheses."
 ],
 "C104": [
  "proved",
  "C104_answers for all models, archives and paths; C104_example shows a file, the index page, a file outside of the directory and a path that ends with .json."
 ],
 "C105": [
  "partial",
  "C105_undisturbed_partial and C105_sequential_partial: the whole document for every request that is not interleaved with others while it copies, whatever happens before and after; C105_safe_partial for all schedules. Concurrent requests are not answered correctly: C105_refuted_empty (for every document that is not empty, one of two requests can get nothing), C105_refuted_wrong (the right number of wrong bytes)."
 ],
 "C106": [
  "partial",
  "C106_history says exactly what is at the path after any number of runs; C106_kept, C106_paths; C106_sound_partial under the assumptions that responses are the archive and writes are finished. Without them it is false: C106_refuted_status (an error page is cached for good), C106_refuted_crash (a piece of the archive is cached for good after a crash or a full disk), C106_refuted_panic. C106_example meets the hypotheses."
 ],
 "C107": [
  "partial",
  "C107_safe_partial: no crash on any file that is safe, where Spec/OpenApiSafe.lean says which are; C107_only: whatever is imported was safe, so that files that are not always end in an error or a crash; C107_schema: for schemas, exactly those that are not safe crash. C107_name, C107_name_dots for the name. Safe is not the same as valid: C107_refuted_components, _null, _type, _dangling, _wildcard, _inline, _parameter, _hyphen are valid documents on which the import crashes. C107_example meets the hypotheses. Not proved: that every valid file that is not safe crashes; some end in an error, depending on what is met first."
 ],
 "C108": [
  "partial",
  "C108_alone_partial and C108_sequential_partial for calls that do not overlap, after any history; C108_finishes. Calls at the same time are mixed up: C108_refuted_foreign, C108_refuted_lost, C108_refuted_exchanged. C108_example and C108_example_after_failure meet the hypotheses."
 ],
 "C109": [
  "partial",
  "C109_found_iff says exactly which type specification FindExampleType gives for a dotted target, C109_crashes_iff exactly when it crashes, and C109_checked_partial that for an example of an accepted source it is the type that the example was checked against, if field names are not repeated in a struct. Refuted as stated: fields of a struct type that is referred to by name are not found (C109_refuted_named), with a repeated field name another type is found (C109_refuted_twice), and the search crashes for an action that does not say what it responds (C109_refuted_crash)."
 ],
 "C110": [
  "partial",
  "C110_types_partial: the schema of a type shows exactly the last example of the type. C110_operations_partial: the operation of the foremost action of a path shows, in its parameters, the body of its request and the body of its response, exactly what the examples give for them, by name; C110_not_foremost: the operations of the other actions show nothing. Refuted as stated: of several examples of a type only the last is kept (C110_refuted_types), examples of the request of an action that is not the first of its path are dropped (C110_refuted_second), and the value for a header of a response is shown as an example of the request parameter of that name (C110_refuted_header)."
 ],
 "C111": [
  "partial",
  "C111_head: title, description, version, servers and license of the document are those of the schema. C111_valid_iff: exactly the documents of complete schemas pass the checks of the import once they are written and read (a name, paths that begin with a slash, a name for the license if it has a place); C111_refused: all others are refused with an error. C111_kept_partial: what is read back has the name, comment, version, server and license of the schema; C111_renamed: a name that is not an identifier becomes the beginning of the comment. Refuted as stated: documents of accepted sources are refused (C111_refuted_unnamed, _license, _path), and a schema without version or server comes back with the version dev and the server http://localhost:8000 (C111_refuted_version); a name that is not an identifier is lost (C111_refuted_name)."
 ],
 "C112": [
  "partial",
  "C112_load_partial: the JSON text printed for a model is loaded, and gives the same schema (every type, example, operation and action with everything they say; annotations up to order), with defaults and examples as JSON makes them (decimals become float64, pointers to texts become texts), and the same names are found. C112_unversioned: a model without SADL version is refused when loaded. Assumed of the Go library: the numbers of the schema are printed as JSON numbers and parsed back. Refuted as stated: a number as default comes back as a float64, so that the Go server of the loaded model has the default 0 (C112_refuted_default); a number too large for a float64 makes loading fail (C112_refuted_huge); models imported from GraphQL and OpenAPI have no version and cannot be loaded (C112_refuted_imported, imported_graphql, imported_openapi)."
 ],
 "C113": [
  "partial",
  "C113_document_partial: the JSON text printed for an OpenAPI document (every path, operation, parameter, body, response, header and schema, nested to any depth up to 4990) is read as the same document, with maps in the order of their keys, empty lists of values and maps of properties as missing ones, and examples as JSON makes them. C113_schema_partial: this holds for the document of every schema without examples whose bounds are printed so that they can be read. C113_operations: each operation is found again under its path and method.  Not modelled: additionalProperties after reading, untyped data that nothing looks at. Assumed of the Go library: the numbers of the document are printed as JSON numbers and parsed back. Refuted as stated: an enumeration without values becomes a string (C113_refuted_empty_enum); a bound too large for a float64 makes printing fail (C113_refuted_overflow); a file that holds null makes the import panic (C113_refuted_null)."
 ],
 "C114": [
  "partial",
  "C114_file_partial: a schema of kept types and actions (C47, C63), without examples, named and with bounds that print and parse back, is exported, printed as JSON, read, checked and imported, and comes back with the same types and actions, and, if its name is an identifier, the same name, comment, version, server and license; C114_document_partial: the same with examples, when the document can be printed as C113 says. Assumed of the Go library: numbers are printed as JSON numbers and parsed back. Refuted as stated: a schema with an empty name is refused (C114_refuted_unnamed); an enumeration without symbols comes back as a string (C114_refuted_enum); the refutations of C47, C63 and C111 are about the same path."
 ],
 "C115": [
  "partial",
  "C115_rules: for every accepted source, every operation of the exported document has a response, every response a description, every parameter a name, one of the places and a schema, and a parameter in the path is required. C115_variables: a parameter in the path has a variable there, if the base path has no question mark. C115_identifiers: operation ids are unique. C115_further_iff: the parameters are different, every variable of the path has a parameter and responses are listed under statuses of HTTP, exactly if the exported actions are orderly. Refuted as stated: a variable without input (C115_refuted_variable), the same header twice (C115_refuted_twice) and the status 7 (C115_refuted_status) are accepted and exported; a question mark in the base path cuts the variable off (C115_refuted_base)."
 ],
 "C116": [
  "partial",
  "C116_source_partial: the text printed for the document of an accepted source without examples (types nested to any depth up to 4988, bounds that the Go library prints so that they can be read) is JSON, and an OpenAPI 3.0 document - every object of the root, info, license, servers, paths, operations, parameters, bodies, responses, headers, media types, examples and schemas has only members OpenAPI allows, all it requires, each once and of the right kind - exactly if the schema is complete (C111) and gives no empty server. C116_text_partial: the same for every document that can be printed, with examples. Refuted as stated: an empty name leaves out the required title (C116_refuted_unnamed), an empty x_server the required url (C116_refuted_server)."
 ],
 "C117": [
  "partial",
  "C117_shapes_partial: every number, string, timestamp, blob, list, set, map, structure, union and enum shape that no operation has as its input or output becomes a type with its name, documentation, kind, limits of range and length (written as the importer expects them), pattern, traits as annotations (error, tags, deprecation, pagination, formats and values), members with their targets and whether they are required, elements and keys. C117_only: there are no other types. C117_head: name, version, namespace, base and metadata of the model. Refuted as stated: a boolean shape becomes a type of the type Boolean, which does not exist (C117_refuted_boolean); the traits of strings are lost (C117_refuted_traits); a string shape named UUID is left out (C117_refuted_uuid); the length of a list is always lost (C117_refuted_length); a range must be a decimal and a length a float64, so that of two equal limits one is always lost (C117_refuted_limits); a name in the metadata does not count (C117_refuted_name)."
 ],
 "C118": [
  "partial",
  "C118_actions_partial: every operation with an HTTP binding becomes an action with its name (with a small first letter), documentation, annotations, method, path followed by the inputs in the query, status, the members of its input and output structures with their binding, type and whether they are required, or the whole structure as the body, and its errors with their status. C118_operations: every operation without binding becomes an operation with its inputs, outputs and errors. C118_only: there are no other actions and operations. Refuted as stated: a structure without bindings becomes the body, but its type is left out, so that the body has a type that does not exist (C118_refuted_body); bindings to headers only are lost (C118_refuted_header); an output structure named like a shape of the prelude is taken for it (C118_refuted_output)."
 ],
 "C119": [
  "partial",
  "C119_panics: the import panics exactly if the service is clear and some shape that is no input or output of an operation is not safe: of an unknown kind, a list or map without its member, with a trait that is a shape but no trait, or an operation with a missing input, output or error. C119_safe_partial: otherwise the result is a model or an error. Refuted as stated: an intEnum (C119_refuted_kind), the unit as input of an operation without binding (C119_refuted_unit), and a trait that is defined but not as a trait (C119_refuted_trait) make it panic."
 ],
 "C120": [
  "partial",
  "C120_examples_partial: the examples of the schema are exactly the inputs and outputs of the examples of the operations of the model, with their titles, documentation and values. Missing: their targets. Refuted as stated: the target is made of the name with its namespace, so that it is no name of SADL whenever the operations have one (C120_refuted_target)."
 ],
 "C121": [
  "partial",
  "C121_examples_partial: the examples of the model are exactly those that the schemas of the components and of the headers and JSON contents of the expected responses give, at any depth. Refuted as stated: examples of parameters, of requests and of the contents of responses themselves are dropped (C121_refuted_dropped)."
 ],
 "C122": [
  "proved",
  "C122_none: no document that is imported gives a model with an example. This also says that the examples of the document are lost, unlike those of an OpenAPI document (C121)."
 ],
 "C123": [
  "partial",
  "C123_back_partial: after export and import the examples are exactly the last examples of the named types that have one, with the same values. Refuted as stated: names of examples are lost, and examples of requests and responses do not come back (C123_refuted_lost), nor do the earlier ones of several examples of a type (C110_refuted_types)."
 ],
 "C124": [
  "partial",
  "C124_shown_partial: the shape of every operation shows exactly the examples of its request by name, each with its input, its comment and, as output, the last example of the response with that name. Refuted as stated: an example of a response without one of the request with the same name is not shown (C124_refuted_dropped). Not covered: the errors added to the examples, and actions without a name or with the same name as another up to capitalisation."
 ]
}