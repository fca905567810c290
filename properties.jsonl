{"id": "C01", "title": "Type and action names are unique in a constructed model", "statement": "NewModel succeeds on a schema exactly when no two type definitions share a name, none of them reuses a built-in type name, and no two HTTP actions share a name; otherwise it reports an error.", "quantifier": "every schema, with any number of types and HTTP actions in any order", "why_tests_cant": "a test tries a handful of schemas; uniqueness must hold for every list of definitions, including a clash between the first and last of thousands", "anchors": ["model.go:NewModel", "model.go:BaseTypes", "schema.go:Schema"]}
{"id": "C02", "title": "Name lookup returns the definition", "statement": "On a model built by NewModel, FindType(n) returns the one definition in the schema called n, or the built-in type n, or nothing when there is neither; FindHttp(n) does the same for HTTP actions. A lookup never returns a definition with another name.", "quantifier": "every accepted schema and every name", "why_tests_cant": "lookup correctness is a statement about all names, including ones not in the schema", "anchors": ["model.go:FindType", "model.go:FindHttp", "model.go:NewModel"]}
{"id": "C03", "title": "Validate accepts exactly the conforming values", "statement": "For every model and named type reached without passing through Union, if Validate terminates then it returns no error exactly when the value conforms to the type: right kind of value, every constraint of the definition met, every nested item/field conforming to its own type.", "quantifier": "every model, type, and value of any nesting depth", "why_tests_cant": "values and type graphs are unboundedly deep; tests only sample finitely many shapes", "anchors": ["model.go:Validate", "model.go:ValidateAgainstTypeSpec", "model.go:ValidateStruct", "model.go:ValidateArray", "model.go:ValidateMap"]}
{"id": "C04", "title": "Validation outcome does not depend on map iteration order", "statement": "Whether Validate accepts an object value does not depend on the order in which the Go runtime happens to enumerate the object's keys.", "quantifier": "every model, type, object value and every enumeration order at every nesting level", "why_tests_cant": "Go randomises map order; a test sees one schedule per run", "anchors": ["model.go:ValidateStruct", "model.go:ValidateMap"]}
{"id": "C05", "title": "Validation terminates", "statement": "Validate returns (value accepted or error) for every model, type name and value.", "quantifier": "every model, type and value", "why_tests_cant": "non-termination on some type graph cannot be excluded by running finitely many cases", "anchors": ["model.go:ValidateAgainstTypeSpec"]}
{"id": "C06", "title": "Integer types enforce their range", "statement": "A value validated against Int8, Int16, Int32 or Int64 is accepted only if it lies within that type's range; explicit min/max options are enforced inclusively.", "quantifier": "every numeric value and every min/max pair", "why_tests_cant": "the range is unbounded on both sides and tests check few boundary points", "anchors": ["model.go:ValidateNumber", "decimal.go:DecimalValue"]}
{"id": "C07", "title": "String constraints are enforced exactly", "statement": "A string is accepted by a String type exactly when its encoded length lies within minsize..maxsize and, if an enumerated list of values is given, it is one of them, otherwise it matches the pattern if one is given.", "quantifier": "every string and every combination of constraints", "why_tests_cant": "strings are unbounded, and the interaction of constraints is combinatorial", "anchors": ["model.go:ValidateString"]}
{"id": "C08", "title": "Enum values are exactly the declared symbols", "statement": "A value is accepted by an Enum type exactly when it is a non-empty string equal to one of the declared symbols.", "quantifier": "every enum and every value", "why_tests_cant": "must hold for all symbol lists and all strings", "anchors": ["model.go:ValidateEnum"]}
{"id": "C09", "title": "Struct validation enforces required and known fields", "statement": "An object accepted by a struct type has every required field, has no field the struct does not declare, and every present field conforms to its declared type; an object with these properties is accepted.", "quantifier": "every struct definition and every object", "why_tests_cant": "fields and objects are unbounded", "anchors": ["model.go:ValidateStruct", "model.go:IsStructField"]}
{"id": "C10", "title": "Array and map validation enforces sizes and items", "statement": "An array (map) is accepted exactly when its number of items lies in minsize..maxsize inclusive and every item conforms to the item type.", "quantifier": "every collection definition and every collection, of any length", "why_tests_cant": "lengths are unbounded", "anchors": ["model.go:ValidateArray", "model.go:ValidateMap"]}
{"id": "C11", "title": "UUID parsing", "statement": "ParseUUID returns its argument unchanged when it accepts it and the empty UUID otherwise; it accepts exactly the strings of 36 bytes with dashes in the places of the 8-4-4-4-12 form, so every canonical UUID is accepted. (That only hexadecimal digits are accepted is false.)", "quantifier": "every string", "why_tests_cant": "all strings of all lengths", "anchors": ["uuid.go:ParseUUID", "uuid.go:RegExUUID", "model.go:ValidateUUID"]}
{"id": "C12", "title": "Unit values that parse also validate", "statement": "Every string ParseUnitValue accepts whose number and unit conform to the declared value and unit types is accepted by Validate for that UnitValue type.", "quantifier": "every string and every UnitValue type", "why_tests_cant": "ranges over all strings", "anchors": ["unitvalue.go:ParseUnitValue", "model.go:ValidateUnitValue"]}
{"id": "C13", "title": "Type equivalence is an equivalence relation", "statement": "EquivalentTypes is reflexive and symmetric, and equivalent types accept the same values.", "quantifier": "every pair of type specifications", "why_tests_cant": "all pairs of types", "anchors": ["model.go:EquivalentTypes", "model.go:EquivalentTypesByName"]}
{"id": "C14", "title": "Type equivalence terminates", "statement": "EquivalentTypes and EquivalentTypesByName return an answer (without crashing) for any two types of a valid model.", "quantifier": "every model and pair of types, including recursive ones", "why_tests_cant": "recursive type graphs are unbounded", "anchors": ["model.go:EquivalentTypes", "model.go:EquivalentTypesByName"]}
{"id": "C15", "title": "ConvertInlineEnums removes every inline enum", "statement": "After ConvertInlineEnums succeeds, no struct type has a field declared with an inline Enum; each such field now names an Enum type of the model having the same elements, and all other fields and types are unchanged.", "quantifier": "every model", "why_tests_cant": "any number of structs and fields", "anchors": ["model.go:ConvertInlineEnums"]}
{"id": "C16", "title": "ConvertInlineEnums keeps type names unique", "statement": "ConvertInlineEnums leaves a model with unique type names with unique type names, and FindType of a synthesized name yields the enum of the field that asked for it.", "quantifier": "every model", "why_tests_cant": "name collisions arise from arbitrary combinations of struct and field names", "anchors": ["model.go:ConvertInlineEnums"]}
{"id": "C17", "title": "A failing ConvertInlineEnums leaves the model unchanged", "statement": "When ConvertInlineEnums returns an error, the model is as it was before the call.", "quantifier": "every model for which it fails", "why_tests_cant": "which prefix of the mutation has happened depends on position of the conflict", "anchors": ["model.go:ConvertInlineEnums"]}
{"id": "C18", "title": "Parsing terminates", "statement": "Parsing any SADL source (without include directives) terminates, with a schema or an error.", "quantifier": "every token sequence of any length", "why_tests_cant": "no finite set of sources excludes an endless loop", "anchors": ["parser.go:ParseNoValidate", "parser.go:GetToken", "parser.go:UngetToken"]}
{"id": "C19", "title": "Parsing never crashes", "statement": "Parsing any SADL source ends with a model or an error value, never with a nil dereference or other panic.", "quantifier": "every token sequence", "why_tests_cant": "fuzzing samples; the claim is about all sources", "anchors": ["parser.go:parseOperationDirective", "parser.go:parseOperationInputs", "parser.go:ParseOptions", "parser.go:ParseNoValidate"]}
{"id": "C20", "title": "Token push-back is transparent", "statement": "Within the parser, reading a token and pushing it back leaves the sequence of tokens to be read unchanged, for every source not at its end; block comments are never delivered.", "quantifier": "every parser state and token sequence", "why_tests_cant": "all states reachable from all sources", "anchors": ["parser.go:GetToken", "parser.go:UngetToken"]}
{"id": "C21", "title": "References in an accepted source resolve", "statement": "When parsing with validation succeeds, every type named by a struct field, array item, map key or item, unit-value component, union variant, reference option, HTTP input, output or exception is defined in the model or built in.", "quantifier": "every accepted source", "why_tests_cant": "all sources; dangling references in rarely used positions escape tests", "anchors": ["parser.go:Validate", "parser.go:validateStruct", "parser.go:validateArray", "parser.go:validateMap", "parser.go:validateUnitValue", "parser.go:validateReference", "parser.go:validateHttp"]}
{"id": "C22", "title": "Required fields have no default and defaults conform", "statement": "In a validated model no struct field is both required and defaulted, and every default of a field conforms to the field's type.", "quantifier": "every accepted source", "why_tests_cant": "all sources", "anchors": ["parser.go:validateStruct"]}
{"id": "C23", "title": "Pattern and values are mutually exclusive", "statement": "In a validated model no String type or String struct field has both a pattern and a list of values.", "quantifier": "every accepted source", "why_tests_cant": "all sources", "anchors": ["parser.go:validateStringDef", "parser.go:validateStruct"]}
{"id": "C24", "title": "HTTP path templates are checked exactly", "statement": "The path template of an HTTP action is accepted exactly when, before the query part, braces are balanced, not nested, and no brace pair spans a slash.", "quantifier": "every string", "why_tests_cant": "all strings", "anchors": ["parser.go:validateHttpPathTemplate"]}
{"id": "C25", "title": "HTTP parameter sources are classified uniquely", "statement": "Each HTTP input is classified as exactly one of header, path, query or body parameter: header if a header option is given, else path if {name} occurs in the path, else query if an item of the query is key={name}, possibly followed by another equals sign, else body.", "quantifier": "every path template, parameter name and option set", "why_tests_cant": "all templates and names", "anchors": ["parser.go:parameterSource", "parser.go:parseHttpSpec"]}
{"id": "C26", "title": "HTTP body rules", "statement": "In a validated model each HTTP action has at most one body input, has one only if the method is POST, PUT or PATCH, has at most one body output per expected response, and none for 204 and 304.", "quantifier": "every accepted source", "why_tests_cant": "all sources", "anchors": ["parser.go:validateHttp"]}
{"id": "C27", "title": "HTTP responses are unambiguous", "statement": "A successfully parsed HTTP action declares at most one expected response and no exception type twice.", "quantifier": "every source", "why_tests_cant": "all sources", "anchors": ["parser.go:parseHttpExpectedSpec", "parser.go:parseHttpExceptionSpec"]}
{"id": "C28", "title": "Default action naming", "statement": "An HTTP action without an explicit operation name gets the lower-cased method followed by the capitalised last literal path segment; the name is never empty.", "quantifier": "every method and path", "why_tests_cant": "all paths", "anchors": ["parser.go:ensureActionName", "parser.go:actionName", "parser.go:resourceName"]}
{"id": "C29", "title": "Comment merging", "statement": "Merging comments is associative, ignores empty comments, trims surrounding blanks, and keeps every non-blank character of the comments in order.", "quantifier": "every sequence of comment texts", "why_tests_cant": "all strings and sequences", "anchors": ["parser.go:MergeComment", "parser.go:EndOfStatement"]}
{"id": "C30", "title": "Options are checked against the type", "statement": "An option list is accepted only if every option is either an x_ annotation or one of those acceptable for the type; an unacceptable option is always an error, and absent options leave the type unconstrained.", "quantifier": "every token sequence and every type", "why_tests_cant": "all option lists", "anchors": ["parser.go:ParseOptions", "parser.go:containsOption", "parser.go:parseTypeOptions"]}
{"id": "C31", "title": "A final newline is not significant", "statement": "A source that parses also parses to the same schema when its final newline is removed.", "quantifier": "every source", "why_tests_cant": "all sources", "anchors": ["parser.go:ParseTypeSpecElements", "parser.go:EndOfStatement", "parser.go:UngetToken"]}
{"id": "C32", "title": "Literals parse to the value they denote", "statement": "Parsing the token form of any JSON-like value (null, booleans, numbers, strings, arrays, objects, nested arbitrarily) yields that value and consumes exactly its tokens.", "quantifier": "every literal value of any nesting depth", "why_tests_cant": "unbounded nesting", "anchors": ["parser.go:parseLiteral", "parser.go:parseLiteralArray", "parser.go:parseLiteralObject"]}
{"id": "C33", "title": "Decompiled source parses back to the same model", "statement": "Parsing the SADL source produced from a model by DecompileSadl yields the same types, operations, HTTP actions, and header data.", "quantifier": "every model", "why_tests_cant": "round-trip over all models; tests use a few files", "anchors": ["unparser.go:DecompileSadl", "unparser.go:sadlTypeSpec", "unparser.go:sadlHttpSpec", "unparser.go:sadlOperationSpec", "parser.go:ParseSadlString"]}
{"id": "C34", "title": "Accepted examples conform to their target", "statement": "In a validated model, every example whose target is a type conforms to that type; an example whose target is an HTTP action's request or response has every required parameter, no unknown one, and each conforming to the parameter's type.", "quantifier": "every accepted source", "why_tests_cant": "all sources and examples", "anchors": ["parser.go:validateExample", "parser.go:validateExampleAgainstHttpRequest", "parser.go:validateExampleAgainstHttpResponse"]}
{"id": "C35", "title": "Includes merge definitions without duplication", "statement": "Including a file adds exactly its types, HTTP actions and operations after those already present, and fails if a type would be defined twice; inclusion terminates.", "quantifier": "every set of files and include structure", "why_tests_cant": "include graphs are unbounded", "anchors": ["parser.go:parseIncludeDirective", "parser.go:parseFileNoValidate"]}
{"id": "C36", "title": "Timestamps survive formatting and parsing", "statement": "Formatting a UTC timestamp and parsing the text yields the same instant to the millisecond.", "quantifier": "every timestamp", "why_tests_cant": "all instants", "anchors": ["timestamp.go:String", "timestamp.go:ParseTimestamp"]}
{"id": "C37", "title": "Unit values survive formatting and parsing", "statement": "Formatting a unit value and parsing the text yields an equal number and unit.", "quantifier": "every unit value", "why_tests_cant": "all numbers and unit strings", "anchors": ["unitvalue.go:String", "unitvalue.go:ParseUnitValue"]}
{"id": "C38", "title": "Configuration data access", "statement": "A Data object returns from Get(k) the value last stored by Put(k), other keys are unaffected, and Get(k1,...,kn) returns the value found by following the path k1,...,kn and nothing when the path does not exist.", "quantifier": "every data tree, key path and value", "why_tests_cant": "all trees and paths", "anchors": ["data.go:Put", "data.go:get", "data.go:Has"]}
{"id": "C39", "title": "Data conversions are total and consistent", "statement": "AsBool, AsString, AsInt, AsStringArray and friends return the value when it has the requested kind and the documented fallback otherwise, and never crash.", "quantifier": "every dynamic value", "why_tests_cant": "all values", "anchors": ["struct_helpers.go"]}
{"id": "C40", "title": "Comment formatting preserves text and width", "statement": "FormatComment keeps every word in order, starts every line with indent and prefix, and produces no line longer than the limit unless it holds a single word.", "quantifier": "every comment, indent, prefix and width", "why_tests_cant": "all strings and widths", "anchors": ["misc.go:FormatComment"]}
{"id": "C41", "title": "Capitalisation laws", "statement": "Capitalize and Uncapitalize change only the first character, are idempotent, and preserve length and the rest of the name.", "quantifier": "every string", "why_tests_cant": "all strings, including non-ASCII", "anchors": ["misc.go:Capitalize", "misc.go:Uncapitalize", "misc.go:IsSymbol"]}
{"id": "C42", "title": "Generators never overwrite existing files unasked", "statement": "Unless force-overwrite is configured, generating files never changes a file that already exists, and after the first error nothing more is written.", "quantifier": "every sequence of file writes and every initial file system", "why_tests_cant": "all histories of writes and failures", "anchors": ["generator.go:WriteFile", "generator.go:Emit"]}
{"id": "C43", "title": "Missing optional query parameters are stripped", "statement": "In generated HTTP traces, query items without a value are removed, all other items are kept unchanged and in order, the path is unchanged, and no dangling ? remains.", "quantifier": "every request path", "why_tests_cant": "all strings", "anchors": ["httptrace/export_http_examples.go:stripMissingOptionalQueryParams"]}
{"id": "C44", "title": "OpenAPI export keeps every operation", "statement": "Exporting a model to OpenAPI yields a document in which every HTTP action appears under its path and method, and fails when two actions share path and method.", "quantifier": "every model", "why_tests_cant": "all models", "anchors": ["openapi/export_openapi.go:ExportToOAS3"]}
{"id": "C45", "title": "OpenAPI export references resolve", "statement": "Every $ref in the exported document names a schema present in the document.", "quantifier": "every model", "why_tests_cant": "all models and nested type expressions", "anchors": ["openapi/export_openapi.go:oasSchema", "openapi/export_openapi.go:exportTypeDef"]}
{"id": "C46", "title": "OpenAPI export terminates without crashing", "statement": "Exporting any validated model to OpenAPI returns a document or an error.", "quantifier": "every model, including recursive types", "why_tests_cant": "recursive types are unbounded", "anchors": ["openapi/export_openapi.go:oasSchema"]}
{"id": "C47", "title": "OpenAPI type export and import are inverse", "statement": "Importing the exported form of a type yields the original type.", "quantifier": "every type of the model", "why_tests_cant": "all types", "anchors": ["openapi/export_openapi.go:exportTypeDef", "openapi/import_openapi.go:convertOasType"]}
{"id": "C48", "title": "Which Smithy type references survive export and import", "statement": "Converting a type reference to Smithy and back yields the original reference exactly if it is one of the scalar types that Smithy has, or a name other than UUID and Array in a namespace that cannot be confused with the prelude; different references that survive have different Smithy references.", "quantifier": "every type reference and namespace", "why_tests_cant": "all names", "anchors": ["smithy/export_smithy.go:typeReferenceByName", "smithy/import_smithy.go:shapeRefToTypeRef"]}
{"id": "C49", "title": "Smithy error categories", "statement": "Each HTTP status is classified into exactly one category consistent with its class, monotone in the status.", "quantifier": "every integer status", "why_tests_cant": "all integers", "anchors": ["smithy/export_smithy.go:httpErrorCategory"]}
{"id": "C50", "title": "Which GraphQL scalar types survive export and import", "statement": "Exporting a scalar type reference to GraphQL and importing it yields the original type exactly for Bool, String, Int32, Float64, and for UUID and Timestamp when configured as custom scalars of their own name; references to struct, enum and union types and inline arrays survive unless they have the name of a GraphQL scalar.", "quantifier": "every scalar type name and required flag", "why_tests_cant": "all names and configurations", "anchors": ["graphql/export_graphql.go:typeRef", "graphql/import_graphql.go:convertTypeName"]}
{"id": "C51", "title": "Mixed import file kinds are refused", "statement": "ImportFiles picks one format for a set of files and reports an error unless all files are of the same known format.", "quantifier": "every list of file names", "why_tests_cant": "all lists", "anchors": ["cmd/sadl/import.go:ImportFiles"]}
{"id": "C52", "title": "Validation of the parsed model is order independent", "statement": "Whether a schema passes validation does not depend on the order in which its types are declared.", "quantifier": "every schema and every permutation of its types", "why_tests_cant": "factorially many orders", "anchors": ["parser.go:Validate", "model.go:NewModel"]}
{"id": "C53", "title": "Validation accepts exactly the valid schemas", "statement": "A source that parses is accepted by validation exactly when its definitions form a valid schema: type references resolve where validation promises to resolve them, defaults belong to optional fields and conform, no String has both pattern and values, unit values are numeric with a String or Enum unit, examples conform to their targets, and HTTP actions have well-formed paths and obey the body rules.", "quantifier": "every source, with any number of definitions and included files", "why_tests_cant": "both directions quantify over all schemas: no invalid one accepted, no valid one refused", "anchors": ["parser.go:Parse", "parser.go:Validate", "parser.go:validateStruct", "parser.go:validateHttp", "parser.go:validateExample"]}
{"id": "C54", "title": "Accepted sources are exactly the sentences of the grammar", "statement": "A source parses exactly when it is a sentence of the SADL grammar, and the schema it gives, comments and annotations included, is the one the grammar denotes; with validation it is accepted exactly when, besides, its names are distinct and that schema is valid.", "quantifier": "every source, of any length and nesting, with any included files", "why_tests_cant": "both directions range over all token sequences: nothing outside the grammar is accepted or silently reinterpreted, and nothing in it refused", "anchors": ["parser.go:ParseNoValidate", "parser.go:parseTypeDirective", "parser.go:parseTypeSpec", "parser.go:parseOperationDirective", "parser.go:parseHttpDirective", "parser.go:parseExampleDirective", "parser.go:parseIncludeDirective", "parser.go:EndOfStatement"]}
{"id": "C55", "title": "A source has one meaning", "statement": "The grammar is unambiguous: no file, with the files it includes, denotes two schemas.", "quantifier": "every file, with any included files", "why_tests_cant": "ranges over all pairs of derivations of all sources", "anchors": ["parser.go:ParseNoValidate", "parser.go:parseIncludeDirective"]}
{"id": "C56", "title": "Exported OpenAPI schemas admit the values of the type", "statement": "Every value that conforms to a type of the model is admitted by the schema the exported OpenAPI document gives for it, as component and as parameter, body or response of an operation.", "quantifier": "every model, every type and every value", "why_tests_cant": "all types and values of any depth: a document that refuses data the API accepts breaks generated clients and gateways", "anchors": ["openapi/export_openapi.go:exportTypeDef", "openapi/export_openapi.go:oasSchema", "validate.go:ValidateAgainstTypeSpec"]}
{"id": "C57", "title": "Exported OpenAPI schemas admit nothing else", "statement": "Every value that the schema of a type in the exported OpenAPI document admits conforms to the type.", "quantifier": "every model, every type and every value", "why_tests_cant": "all types and values of any depth", "anchors": ["openapi/export_openapi.go:exportTypeDef", "openapi/export_openapi.go:oasSchema", "validate.go:ValidateAgainstTypeSpec"]}
{"id": "C58", "title": "When the Smithy export succeeds", "statement": "Exporting a model to Smithy returns an AST exactly when every type is based on a type with a Smithy counterpart, every action has an expected response, pagination annotations are well formed, every exception is a shape and the examples used are objects; otherwise it returns an error naming the exception type, or panics for one of the other reasons. Neither the namespace nor map order matters.", "quantifier": "every model, namespace, suffix option and map enumeration order", "why_tests_cant": "both directions range over all models", "anchors": ["smithy/export_smithy.go:Export", "smithy/export_smithy.go:FromSADL"]}
{"id": "C59", "title": "Every accepted source can be exported to Smithy", "statement": "Exporting the model of an accepted source to Smithy returns an AST, without error or panic.", "quantifier": "every accepted source", "why_tests_cant": "all sources", "anchors": ["smithy/export_smithy.go:FromSADL", "smithy/export_smithy.go:defineShapeFromTypeSpec"]}
{"id": "C60", "title": "References of the exported Smithy AST resolve", "statement": "Every type, action and operation has its shape, and every reference in the exported Smithy AST leads to a shape of the AST or of Smithy's prelude.", "quantifier": "every model that can be exported", "why_tests_cant": "all models, of any size", "anchors": ["smithy/export_smithy.go:FromSADL", "smithy/export_smithy.go:typeReferenceByName", "smithy/export_smithy.go:EnsureNamespaced"]}
{"id": "C61", "title": "Smithy export and import are inverse on types", "statement": "Importing the Smithy AST exported from a schema gives back its type definitions, so that the same values conform to them, whether the AST is passed on in memory or through a JSON file.", "quantifier": "every schema, every type, every value, and both ways of passing the AST on", "why_tests_cant": "all schemas, with any number of types and fields", "anchors": ["smithy/export_smithy.go:defineShapeFromTypeSpec", "smithy/import_smithy.go:importStructureShape", "smithy/import_smithy.go:ToSadl"]}
{"id": "C62", "title": "Smithy export and import are inverse on actions", "statement": "Importing the Smithy AST exported from a schema gives back its HTTP actions and operations: name, method, path, inputs with their place, expected response and exceptions.", "quantifier": "every schema and every action and operation of it", "why_tests_cant": "all schemas, with any number of actions and parameters", "anchors": ["smithy/export_smithy.go:FromSADL", "smithy/import_smithy.go:importOperationShape"]}
{"id": "C63", "title": "OpenAPI export and import are inverse on actions", "statement": "Importing the OpenAPI document exported from a schema gives back its HTTP actions: name, method, path, comment, resource, tags, inputs with their place, expected response and exceptions; also when the document was written and read again, which reorders its maps.", "quantifier": "every schema, every action of it, and every order of the maps of the document", "why_tests_cant": "all schemas, with any number of actions and parameters", "anchors": ["openapi/export_openapi.go:Export", "openapi/import_openapi.go:ToSadl", "openapi/import_openapi.go:convertOasPath"]}
{"id": "C64", "title": "When generating Go types succeeds", "statement": "For a source that the parser accepts, generating its Go types produces a file exactly if every type and every action can be written (a condition on each type and action alone); otherwise the generator panics; it never reports an error.", "quantifier": "every accepted source, with included files, and all settings of the generator", "why_tests_cant": "all schemas, with any number of types, fields and actions", "anchors": ["golang/golang_model.go:CreateModel", "golang/golang_model.go:EmitType", "golang/export_golang.go:nativeTypeName"]}
{"id": "C65", "title": "When the generated Go file respects the static rules of Go", "statement": "In the Go file generated from an accepted source every declared name is an identifier and declared once, every type used is declared, the packages imported are exactly those used, functions return what they declare, no type contains itself and keys of maps can be compared, exactly if the schema is sound, which is stated on the names and types of the schema alone.", "quantifier": "every accepted source and all settings of the generator", "why_tests_cant": "all schemas; a compiler can only be run on some", "anchors": ["golang/golang_model.go:CreateModel", "golang/golang_model.go:EmitStructType", "golang/golang_model.go:EmitEnumType", "golang/export_golang.go:WriteGoFile"]}
{"id": "C66", "title": "The generated Go types mirror the schema", "statement": "The generated Go file has, in the order of the schema, a method and a request and a response type for each action and the declarations of each type: struct fields capitalized, with the JSON name of the field, left out when empty exactly if the field is not required, and of the corresponding Go type; union variants, enumeration symbols with their texts; an Error method exactly for the types that are exceptions; and nothing else but the types Timestamp and Decimal where they are used.", "quantifier": "every accepted source whose types can be generated, and all settings of the generator", "why_tests_cant": "all schemas, with any number of types, fields and actions", "anchors": ["golang/golang_model.go:EmitTypeDefs", "golang/golang_model.go:EmitStructType", "golang/golang_model.go:EmitUnionType", "golang/golang_model.go:EmitEnumType"]}
{"id": "C67", "title": "Configuration data written as JSON is read back", "statement": "Data that holds a JSON object nested at most 10000 deep, written by String or DataToFile, is read back by DataFromJsonString or DataFromFile as the same data up to the order of keys. Deeper data and data that is not an object (or null) is written too, but the text is rejected.", "quantifier": "every JSON-shaped value, with strings of any characters", "why_tests_cant": "all values of any size and depth and all strings", "anchors": ["data.go:DataFromJsonString", "data.go:DataToFile", "data.go:DataFromFile", "misc.go:Pretty"]}
{"id": "C68", "title": "Equivalent compares values up to the order of keys", "statement": "For any two JSON values, Equivalent reports true exactly if they are equal up to the order in which the keys of objects, at any depth, are enumerated.", "quantifier": "every pair of JSON-shaped values", "why_tests_cant": "all pairs of values of any size and depth", "anchors": ["misc.go:Equivalent", "misc.go:Pretty"]}
{"id": "C69", "title": "Timestamps, UUIDs, unit values and decimals are read back from their JSON encoding", "statement": "Encoding a Timestamp, UUID, UnitValue or Decimal as JSON and decoding the text gives the same value.", "quantifier": "every value of these types", "why_tests_cant": "all values; units are arbitrary text", "anchors": ["timestamp.go:MarshalJSON", "timestamp.go:UnmarshalJSON", "uuid.go:UnmarshalJSON", "unitvalue.go:MarshalJSON", "unitvalue.go:UnmarshalJSON", "decimal.go:MarshalJSON"]}
{"id": "C70", "title": "Settings given by flags override the configuration file and reach the generator", "statement": "The settings a generator sees are those of its section of the configuration file, overridden by -f and by the options -x key or -x key=value, the last one winning; a setting that is not set has its default; the -server and -client generators have that setting on.", "quantifier": "every configuration file and every list of options", "why_tests_cant": "all configurations and option lists", "anchors": ["cmd/sadl/main.go:main", "cmd/sadl/export.go:ExportFiles", "generator.go:GetConfigString", "generator.go:GetConfigBool"]}
{"id": "C71", "title": "When the GraphQL export succeeds", "statement": "Exporting a model to GraphQL prints a document exactly if each of its types is a struct, an enumeration, a union, an array, a string, a boolean or a number; otherwise it panics; it never reports an error.", "quantifier": "every model and every configuration", "why_tests_cant": "all models of any size", "anchors": ["graphql/export_graphql.go:Export", "graphql/export_graphql.go:FromSadl"]}
{"id": "C72", "title": "An exported GraphQL document is valid GraphQL", "statement": "The text printed by the GraphQL export is a GraphQL document: it follows the grammar, defines no name twice, refers only to types it defines or that are built in, has only object types as members of unions and no empty types.", "quantifier": "every accepted model, every configuration of custom scalars and every order in which Go enumerates them", "why_tests_cant": "all models of any size, and all enumeration orders of a map", "anchors": ["graphql/export_graphql.go:FromSadl", "graphql/export_graphql.go:EmitStructDef", "graphql/export_graphql.go:EmitEnumDef", "graphql/export_graphql.go:EmitUnionDef", "graphql/export_graphql.go:typeRef"]}
{"id": "C73", "title": "A GraphQL document is imported completely, or an error is reported", "statement": "Importing succeeds exactly if there is one file, it can be read and parsed, all its definitions are of known kinds and define new names, and no list is nested in a list. The model then has the type ID and, in order, one type for each enumeration, union and object type that is not a root: with the same name and the same elements, variants or fields, required where they may not be null, with the corresponding types, and with the descriptions, on one line, as comments. Without nested lists the import never panics.", "quantifier": "every document and every file system", "why_tests_cant": "all documents of any size", "anchors": ["graphql/import_graphql.go:Import", "graphql/import_graphql.go:gqlSchema", "graphql/import_graphql.go:gqlStruct", "graphql/import_graphql.go:gqlEnum", "graphql/import_graphql.go:gqlUnion"]}
{"id": "C74", "title": "Exporting to GraphQL and importing gives the same types", "statement": "A model exported to GraphQL and imported again has the same types, up to comments and annotations and the additional type ID.", "quantifier": "every accepted model and configuration", "why_tests_cant": "all models of any size", "anchors": ["graphql/export_graphql.go:FromSadl", "graphql/import_graphql.go:Import"]}
{"id": "C75", "title": "When printing HTTP traces crashes", "statement": "Printing the HTTP traces of a model crashes exactly if, for some action, a request example, or a response example with the name of a request example, is not an object, or there is such a response although the action has no expect; it does not for accepted models whose actions have an expect and whose exceptions are structs.", "quantifier": "every model, and every order in which Go enumerates the map of named examples", "why_tests_cant": "all models and all enumeration orders", "anchors": ["httptrace/export_http_examples.go:Export", "httptrace/export_http_examples.go:generateHttpTrace"]}
{"id": "C76", "title": "The trace of a request example is the HTTP request for that example", "statement": "For a request example of an action, the printed trace contains an HTTP request: the request line with the method, the path with the values of the example in place of the variables and the query parameters that have a value; the headers with the values of the example; and the example of the body as JSON.", "quantifier": "every model, action, example and template, and every enumeration order", "why_tests_cant": "all templates and values: sequential textual replacement may interfere with earlier replacements", "anchors": ["httptrace/export_http_examples.go:generateHttpTrace", "httptrace/export_http_examples.go:stringExample", "httptrace/export_http_examples.go:stripMissingOptionalQueryParams"]}
{"id": "C77", "title": "The trace of an exchange shows the response, with its true length", "statement": "If there is a response example with the name of a request example, the request is followed by an HTTP response with the right status, whose Content-Length is the number of bytes of its body, with the headers of the example, and with the example as JSON body.", "quantifier": "every model, action and examples, every enumeration order and every time", "why_tests_cant": "all examples, including those with characters of several bytes", "anchors": ["httptrace/export_http_examples.go:generateHttpTrace", "httptrace/export_http_examples.go:dateHeader"]}
{"id": "C78", "title": "Every request example is shown exactly once", "statement": "The printed text has, for each action in order, exactly one section for each of its request examples.", "quantifier": "every model and every enumeration order", "why_tests_cant": "all models and all enumeration orders", "anchors": ["httptrace/export_http_examples.go:Export", "httptrace/export_http_examples.go:generateHttpTrace"]}
{"id": "C79", "title": "When loading a Swagger document crashes", "statement": "Loading a decoded Swagger document, also when only to find out whether a file is one, is an error exactly when the document does not claim version 2.0; it crashes exactly when the document claims it but needs a schema without a known type and without a reference, or an array without items; otherwise it gives a model.", "quantifier": "every decoded JSON document", "why_tests_cant": "all documents: schemas nest to any depth, and may be of any shape", "anchors": ["openapi/import_swagger.go:LoadSwagger", "openapi/import_swagger.go:IsValidSwaggerFile", "openapi/import_swagger.go:toV3", "openapi/import_swagger.go:toV3Schema"]}
{"id": "C80", "title": "The definitions of a Swagger document become the types that they denote", "statement": "When a Swagger document is imported, its definitions become types of the same name, and each type has the kind, the fields, which of them are required, the symbols, the sizes, the pattern and the comment that the schema of the definition denotes.", "quantifier": "every decoded document that is imported, of any size and nesting", "why_tests_cant": "all documents and nestings", "anchors": ["openapi/import_swagger.go:ImportSwagger", "openapi/import_swagger.go:toV3Components", "openapi/import_swagger.go:toV3Schema", "openapi/import_openapi.go:convertOasType", "openapi/import_openapi.go:ToSadl"]}
{"id": "C81", "title": "The operations of a Swagger document become the actions that they denote", "statement": "When a Swagger document is imported, its operations become the actions, with the method, the path, the query, the name, the comment, the parameters at their place with their type, the body, the expected response with its headers and type, and the exceptions with their status and type.", "quantifier": "every decoded document that is imported", "why_tests_cant": "all documents", "anchors": ["openapi/import_swagger.go:toV3Operation", "openapi/import_swagger.go:toV3Paths", "openapi/import_swagger.go:toV3Response", "openapi/import_openapi.go:convertOasPath", "openapi/import_openapi.go:ToSadl"]}
{"id": "C82", "title": "Importing an OpenAPI document twice gives the same model", "statement": "The model that results from the import of an OpenAPI document does not depend on the order in which the runtime enumerates the maps of the document, except for the order of types, actions and exceptions.", "quantifier": "every document and every enumeration order of its maps", "why_tests_cant": "all documents and all enumeration orders: a run sees one order only", "anchors": ["openapi/import_openapi.go:ToSadl", "openapi/import_openapi.go:convertOasPath", "openapi/import_openapi.go:convertOasType"]}
{"id": "C83", "title": "When a Go server is generated, and what it consists of", "statement": "From an accepted source, a Go server is generated exactly when every action has a name, an expected response, parameters of text, timestamp or integer types and no anonymous arrays or maps as exceptions; otherwise an error is reported, and the generator never crashes. The server has one handler and one route per action, in order; the route leads requests with the method and the path of the action to its handler.", "quantifier": "every accepted source, service name and package", "why_tests_cant": "all schemas: actions and parameters are unbounded in number and shape", "anchors": ["golang/golang_server.go:CreateServer", "golang/golang_server.go:EmitServerAdaptor", "golang/golang_server.go:paramAccessor"]}
{"id": "C84", "title": "Which generated Go servers the Go compiler accepts", "statement": "The types and the server generated from an accepted source respect the rules of the Go compiler (names declared once and used, types of assignments and cases, imports) exactly when the schema has an action, mentions timestamps, uses no name of the server, has no outputs and no query or body inputs for status 204 and 304, has outputs and not both query and body inputs for other statuses, and has struct types as exceptions.", "quantifier": "every accepted source whose types and server are generated, every capitalized service name that is not a built-in type", "why_tests_cant": "all schemas: compiling one generated server says nothing about the others", "anchors": ["golang/golang_server.go:EmitServerAdaptor", "golang/golang_server.go:paramAccessor", "golang/golang_server.go:nativeType", "golang/golang_server.go:timestampDefault"]}
{"id": "C85", "title": "What the handlers of a generated Go server do with a request", "statement": "A handler of a generated server that compiles refuses a request with status 400 exactly when there are query parameters and the query is malformed, or there is a body input and the body cannot be decoded. Otherwise it calls the implementation with each input read from the query, header, path or body where the action puts it, or with the default; then it sends the expected status, the declared headers and the entity, or the status of the exception that was raised, 500 for others.", "quantifier": "every accepted source with a server that compiles, every action, every request and every implementation", "why_tests_cant": "all schemas, requests and implementations", "anchors": ["golang/golang_server.go:EmitServerAdaptor", "golang/golang_server.go:paramAccessor", "golang/golang_server.go:stringDefault", "golang/golang_server.go:intDefault", "golang/golang_server.go:timestampDefault"]}
{"id": "C86", "title": "When a Go client is generated, and what it consists of", "statement": "From an accepted source, a Go client is generated exactly when every action has an expected response and no anonymous arrays or maps as outputs or exceptions; otherwise an error is reported, and the generator never crashes. The client has one method per action, in order, which sends requests with the method of the action to its path.", "quantifier": "every accepted source, service name and package", "why_tests_cant": "all schemas: actions and parameters are unbounded in number and shape", "anchors": ["golang/golang_client.go:CreateClient", "golang/golang_client.go:EmitClient"]}
{"id": "C87", "title": "Which generated Go clients the Go compiler accepts", "statement": "The types and the client generated from an accepted source respect the rules of the Go compiler exactly when the service is called Crudl or there is a suitable type CrudlClient, some response body is decoded, no name is one that clients use, no query parameter is a UUID, decimal, enumeration or union, headers of responses are texts or timestamps, exceptions are structs, statuses of an action differ, and a server is generated too if a body is sent.", "quantifier": "every accepted source whose types and client are generated, every capitalized service name that is not a built-in type, with and without a server", "why_tests_cant": "all schemas: compiling one generated client says nothing about the others", "anchors": ["golang/golang_client.go:EmitClient", "golang/golang_client.go:notSet", "golang/golang_client.go:typeFormat"]}
{"id": "C88", "title": "What the methods of a generated Go client send and give back", "statement": "A method of a generated client that compiles sends one request: with the method of the action, to its path as it is written (no value is substituted), with each query input that is not zero under the name of the input, with the body input as JSON for PUT, POST and PATCH, and with no header for header inputs. The expected status yields a response with every output from the body or its header; the status of an exception yields that exception; a body that cannot be decoded and any other status yield an error.", "quantifier": "every accepted source with a client that compiles, every action, all values of inputs, every response", "why_tests_cant": "all schemas, values and responses", "anchors": ["golang/golang_client.go:EmitClient", "golang/golang_client.go:notSet", "golang/golang_client.go:typeFormat"]}
{"id": "C89", "title": "Which files generating Go writes, and when an error is reported", "statement": "Generating Go touches only the files asked for (types, server, client) in the directory of the package, and never one that exists unless overwriting is asked for; a file that changes gets the text generated for it. No error is reported exactly when the directory could be made and every file asked for can be generated and is either protected or could be written; then all of them are there. The generator crashes exactly when generating the types does, and then no file has changed. Service name, package and paths are those of the settings, the namespace or their defaults.", "quantifier": "all models, settings, output directories, files present and behaviours of the operating system; the last part for every accepted source", "why_tests_cant": "all file systems and failures, all combinations of settings", "anchors": ["golang/export_golang.go:Export", "golang/export_golang.go:NewGenerator", "golang/export_golang.go:WriteGoFile", "generator.go:WriteFile"]}
{"id": "C90", "title": "Java types of fields", "statement": "For every accepted source without types called like Java's box classes, the Java type that the generator gives to a field, variant, input or output is the one of the mapping: the primitive type for a required number or boolean and its box for an optional one, String, BigDecimal, UUID, Instant or Timestamp, Object, List and Map of the mapped items, the class of the same name for structs, enums, unions and unit values, and the Java type of the supertype for other named types. It is unique. The generator recurses for ever exactly when a named array or map contains itself.", "quantifier": "All accepted sources, all types used in them (any nesting, any chain of named types), required or optional, all settings.", "why_tests_cant": "Chains of named types can be arbitrarily long or cyclic; tests look at a few.", "anchors": ["java/export_java.go: TypeName, primitiveType"]}
{"id": "C91", "title": "Java classes mirror types", "statement": "For every accepted source, the class generated for a struct or union has one member per field or variant, in order, with its name, comment, requiredness, annotations and Java type; each field that is a struct with fields of its own has a class inside it (the last one, if two have the same capitalized name), recursively; an enum has one constant per element with its JSON text; a unit value reads its value and unit according to their types. Only structs, enums, unions and unit values have classes.", "quantifier": "All accepted sources, all types, all settings, all orders in which Go's maps may be iterated.", "why_tests_cant": "Structs nest to any depth and the map order of the inner classes varies between runs.", "anchors": ["java/export_java.go: CreatePojo, CreateStructPojo, CreateEnumPojo, CreateUnionPojo, CreateUnitValuePojo"]}
{"id": "C92", "title": "When a Java class can be generated", "statement": "For every accepted source, the class of a type is generated exactly when each of its members has a Java type and none is called package, no struct inside it (at any depth) would be called like the class around it, members that need a getter have names, and the unit of a unit value maps to a Java name that is known as a type.", "quantifier": "All accepted sources, all types of any depth, all settings.", "why_tests_cant": "The condition is about every depth of nesting.", "anchors": ["java/export_java.go: CreatePojo, CreateStructPojo, CreateUnionPojo, CreateUnitValuePojo"]}
{"id": "C93", "title": "Files that generating Java writes", "statement": "For every accepted source, settings and contents of the file system: every file that generating Java changes is one of the expected ones (the classes of types, the requests, responses, interface and exceptions of the service, the server, the client, the pom), in the directory of its package under the output directory, with the content generated for it; files that exist are not touched unless force-overwrite is set; when there is no error every expected file that may be written has been written; and there is no error exactly when every directory can be made, every part can be generated and every file that is not protected can be written.", "quantifier": "All accepted sources, all settings, all initial file systems, all outcomes of creating directories and writing files, all output directories, all map orders.", "why_tests_cant": "The set of files depends on the whole schema and settings, and failures can occur at any file.", "anchors": ["java/export_java.go: Export, NewGenerator, EnsurePackageDir, WriteJavaFile, CreateJavaFileFromTemplate, CreatePojoFromDef", "java/java_server.go: CreateServer, ExceptionTypes, CreateRequestPojo, CreateResponsePojo", "java/java_client.go: CreateClient, CreateClientConfig", "java/java_pom.go: CreatePom"]}
{"id": "C94", "title": "Generated Java server mirrors the actions", "statement": "For every accepted source, the generated Java server has one method per action, in order, with its HTTP method, path, name, and one parameter per input taken from the query, a header, the path or the body as the action says, with its Java type and default; it sends the expected status with the outputs in headers and the body, and the status of each exception. It is generated exactly when every action has an expected response and the defaults of inputs are strings, numbers or booleans (given that all types have Java types).", "quantifier": "All accepted sources without types called like Java's box classes, all settings.", "why_tests_cant": "Any number of actions with any combination of inputs, outputs and exceptions.", "anchors": ["java/java_server.go: CreateServerDataAndFuncMap, ActionInfo, ActionName, RequestType, ResponseType, jsonWrapper"]}
{"id": "C95", "title": "Generated Java client mirrors the actions", "statement": "For every accepted source, the generated Java client has one method per action, in order, which sends the path variables, query parameters, headers and body as the action says, and turns the expected status into the response with its outputs and the statuses of exceptions into these. It is generated exactly when every action has an expected response, uses GET, PUT, POST or DELETE and has a name if there are outputs (given that all types have Java types).", "quantifier": "All accepted sources without types called like Java's box classes, all settings.", "why_tests_cant": "Any number of actions with any combination of inputs, outputs and exceptions.", "anchors": ["java/java_client.go: CreateClientDataAndFuncMap"]}
{"id": "C96", "title": "Generated Java client and server agree", "statement": "For every accepted source and every action: the inputs that the client is given are those that the implementation gets, null ones replaced by their defaults; a response that the implementation returns is returned by the client with the same outputs; an exception of the action that the implementation throws is thrown by the client with the same object; any other failure is a RuntimeException. Conditions: the names under which inputs and outputs are sent differ, statuses and exception classes differ, path variables and instants in headers are not null, and 500 is not used by the action.", "quantifier": "All accepted sources, actions, settings, request and response objects of any content.", "why_tests_cant": "Two generated programs must agree for all specifications and all values.", "anchors": ["java/java_server.go: CreateServerDataAndFuncMap", "java/java_client.go: CreateClientDataAndFuncMap"]}
{"id": "C97", "title": "Files and directories to import", "statement": "For every list of files and directories given to an import: it is refused exactly when one without a known extension does not exist; otherwise the files that are read are exactly the given files and those in the given directories, at any depth, that have the extension of a format, in the order of the list; and the Smithy importer reads exactly the files chosen for it and merges them in that order.", "quantifier": "All lists of paths, all directory trees of any depth, all contents.", "why_tests_cant": "Directory trees are unbounded, and errors can occur at any entry.", "anchors": ["cmd/sadl/import.go: expandPaths, ImportFiles", "smithy/import_smithy.go: AssembleModel, expandPaths, Import"]}
{"id": "C98", "title": "Generated Go client and server agree", "statement": "For every accepted source whose generated Go types, server and client respect the rules of Go: a method of the client sends its request to the route and method at which the server calls the handler of the same action; the implementation is given the values that the caller put in the request; and the caller gets back the response, the declared error or an unexpected error exactly as the implementation returned it.", "quantifier": "All accepted sources, actions, values of requests, implementations, responses, errors.", "why_tests_cant": "Sources, values and implementations are unbounded, and client and server are two separate generated programs.", "anchors": ["golang/golang_server.go", "golang/golang_client.go"]}
{"id": "C99", "title": "Imports of generated Java classes", "statement": "Every class of another package that a generated Java class refers to, for the types of its members, its annotations, its builder or Lombok, at any depth of nested classes, is imported by its file; the helper class Util is written to the package of every class that refers to it; only a fixed set of classes is ever imported, in alphabetical order and each once; and a file imports all that the files written before it import.", "quantifier": "All accepted sources, all settings of the generator, all generated files, all members at any depth of nesting.", "why_tests_cant": "Sources and settings are unbounded, nesting has no limit, and the imports of a file depend on all the types generated before it.", "anchors": ["java/export_java.go:88-95 AddImport", "java/export_java.go:190-225 CreatePojo", "java/export_java.go:652-798 TypeName", "java/java_model.go CreateModel"]}
{"id": "C100", "title": "Strings, comments and brackets of generated Java files", "statement": "In every generated Java file all string literals, character literals and comments end, all escapes are ones Java knows, and every bracket is closed by its counterpart, whatever the names, comments, patterns, enum values, defaults, paths and headers of the source are.", "quantifier": "All accepted sources whose names contain no brackets, quotes, slashes, backslashes or line ends; all comments, patterns and defaults; all settings; all files of the model, the server and the client.", "why_tests_cant": "The text of a file is put together from unboundedly many parts of the source, and a single quote or bracket in any of them can break it.", "anchors": ["java/export_java.go:190-650 CreatePojo, CreateStructPojo, CreateEnumPojo, CreateUnionPojo, CreateUnitValuePojo", "java/java_server.go:327-414 mainTemplate, resourcesTemplate, implTemplate", "java/java_client.go:184 clientTemplate", "misc.go:115 FormatComment"]}
{"id": "C101", "title": "Strings, comments and brackets of generated Go files", "statement": "In every generated Go file all string and rune literals and comments end, all escapes are ones Go knows, and every bracket is closed by its counterpart, whatever the names, enum values, defaults, query parameters, paths and headers of the source are.", "quantifier": "All accepted sources whose names contain no brackets, quotes, slashes, backslashes or line ends, and whose paths, headers and enum values contain no double quotes, backslashes or line ends; all query parameters and defaults; all settings; types, server and client.", "why_tests_cant": "The text of a file is put together from unboundedly many parts of the source, and a single quote or bracket in any of them can break it.", "anchors": ["golang/golang_model.go EmitStructType, EmitUnionType, EmitEnumType, enumTemplate", "golang/golang_server.go serverTemplate, paramAccessor", "golang/golang_client.go clientTemplate, queryParams, expectedResults", "golang/export_golang.go:85-99 WriteGoFile"]}
{"id": "C102", "title": "Names in a model are words of its source", "statement": "Every name in a parsed model (types, fields at any depth, enum symbols, variants, parameters, exceptions, operations, examples and references to types) is a symbol of the source or of a file it includes, or one of eight words that need not be written; every pattern, allowed value, annotation, path and header is a string of the source, every comment consists of characters of its comments and spaces, every string default is what a string of the source denotes, the query name of a parameter is a piece of the path, and the name of an action that has none is its method and a segment of its path.", "quantifier": "All sources that are accepted, all files they include to any depth, all definitions in them.", "why_tests_cant": "A name that is altered, cut or taken from the wrong token can come from any of the notations of the language at any depth; tests show a few.", "anchors": ["parser.go parseTypeDirective, parseTypeSpecElements, parseStructFieldDef, parseEnumElement, parseHttpDirective, parseHttpParam, parseOperationDirective, parseExampleDirective, parseOptions", "parser.go:609-662 ensureActionName, ensureResourceName, resourceName", "parser.go:320-360 parseIncludeDirective"]}
{"id": "C103", "title": "The built-in types a model uses are collected completely", "statement": "For every model, smithy.AllTypeRefs returns the set of the built-in types that the types of the model lead to through fields, items, keys, units, values and variants, and nothing else; it returns exactly if no such path is infinite or ends in an undefined name.", "quantifier": "All models, types of any depth and shape, recursive ones included.", "why_tests_cant": "The result depends on paths of any length through the types of a model, and non-termination cannot be observed by a test.", "anchors": ["smithy/export_smithy.go:40-83 AllTypeRefs, noteTypeRefs", "model.go:43-50 FindType"]}
{"id": "C104", "title": "The Swagger server answers each path with the file it names", "statement": "sadl's swagger-ui server answers every request for a path that ends with .json with the document, requests for / and /index.html with the index page of the archive in which every occurrence of the example's address is replaced by the name of the document, and every other path with the last entry of that name in the first dist directory of the archive; a path that is not there is not found, and nothing outside of that directory is ever served.", "quantifier": "All model names, all archives, all request paths.", "why_tests_cant": "Archives and paths are unbounded, and the answer depends on the order of the entries and on names that begin alike.", "anchors": ["cmd/sadl/serve.go:21-87 serveSwaggerUi"]}
{"id": "C105", "title": "Every request for the document gets the whole document", "statement": "Under every schedule of concurrent requests, each request for the OpenAPI document that completes is answered with the whole document.", "quantifier": "All documents, any number of requests, all interleavings of their steps, all sizes of reads.", "why_tests_cant": "Interleavings of steps of concurrent requests cannot be chosen by a test, and there are unboundedly many.", "anchors": ["cmd/sadl/serve.go:27-64 serveSwaggerUi, docContent"]}
{"id": "C106", "title": "The cached archive is the archive", "statement": "After any history of runs, with failures of the network and of the disk and crashes at any point, the file that the swagger-ui server uses as the archive is absent or the complete archive, and different releases are kept in different files.", "quantifier": "All histories of runs, all responses, all points at which a write is cut off, all releases.", "why_tests_cant": "Crash points and histories cannot be enumerated by tests.", "anchors": ["cmd/sadl/serve.go:89-117 cacheSwaggerDist", "cmd/sadl/main.go:175-181 fileExists"]}
{"id": "C107", "title": "Importing an OpenAPI file does not crash", "statement": "Importing any OpenAPI file that its validation accepts returns a model or an error, and never crashes; the model of a document without a usable title is named after the file.", "quantifier": "All documents: any schemas of any depth, references, parameters, responses and paths; all file names.", "why_tests_cant": "Documents are unbounded trees, and each of the crashes depends on a combination that a test has to think of.", "anchors": ["openapi/import_openapi.go:23-68 Load, Import", "openapi/import_openapi.go:126-215 ToSadl", "openapi/import_openapi.go:217-391 convertOasType", "openapi/import_openapi.go:393-609 convertOasPath", "openapi/model.go:32-76 Validate"]}
{"id": "C108", "title": "The examples of an imported model are those of its document", "statement": "Under every schedule of concurrent conversions of OpenAPI documents, and after any history of earlier ones, including those that failed, each conversion that succeeds returns a model with the examples of its own document.", "quantifier": "All documents, any number of calls, all interleavings of their steps, all points at which a call fails.", "why_tests_cant": "Interleavings of concurrent calls cannot be chosen by a test, and there are unboundedly many.", "anchors": ["openapi/import_openapi.go:122 examples", "openapi/import_openapi.go:126-215 ToSadl", "openapi/import_openapi.go:240-247 convertOasType"]}
{"id": "C109", "title": "The type of the target of an example is found", "statement": "For every model and every target of an example (names separated by dots: a type, or the request or response of an action, then fields) FindExampleType returns the type specification that the target refers to, which is the one that the example was checked against when the model was parsed, or reports an error if there is none; it never crashes.", "quantifier": "every model, every target", "why_tests_cant": "all schemas, all paths of names of any length", "anchors": ["model.go:FindExampleType", "parser.go:validateExample"]}
{"id": "C110", "title": "Examples appear in the exported OpenAPI document", "statement": "Every example of the schema appears in the exported OpenAPI document at the place it is about: the schema of the type, the parameter or the body of the request, or the body or header of the response of the action; and the document shows no other examples.", "quantifier": "every model, every example, every order of the map of paths", "why_tests_cant": "any number of types, actions and examples, in any order; the order of Go maps", "anchors": ["openapi/export_openapi.go:ExportToOAS3", "openapi/export_openapi.go:FindOperation"]}
{"id": "C111", "title": "The head of a schema survives OpenAPI", "statement": "A document exported to OpenAPI states the name, comment, version, server and license of the schema; written to a file, it passes the checks of the import, and the imported schema has the same name, comment, version, server and license.", "quantifier": "every model that is exported, every order of the map of paths, every file name", "why_tests_cant": "the schema may have any name, annotations, base and actions", "anchors": ["openapi/export_openapi.go:ExportToOAS3", "openapi/model.go:Validate", "openapi/model.go:ValidateInfo", "openapi/model.go:ValidatePaths", "openapi/import_openapi.go:Import", "openapi/import_openapi.go:ToSadl"]}
{"id": "C112", "title": "A model printed as JSON can be loaded again", "statement": "The JSON text that is printed for a model is accepted as input again, and the model loaded from it is the same: types, fields, defaults, examples, operations and actions.", "quantifier": "every model, with types and literals of every size and nesting", "why_tests_cant": "a schema may combine any of the fields of all its structures, empty or not, nested to any depth; a field whose JSON name is misspelled, shared by two structures or left out when zero only shows for the schemas that use it", "anchors": ["parser.go:LoadModel", "cmd/sadl/export.go:ExportFiles", "misc.go:Pretty", "schema.go:Schema", "schema.go:TypeSpec", "decimal.go:MarshalJSON", "decimal.go:UnmarshalJSON", "graphql/import_graphql.go:gqlSchema", "openapi/import_openapi.go:ToSadl"]}
{"id": "C113", "title": "An OpenAPI document printed as JSON can be read again", "statement": "The JSON text that is printed for an exported OpenAPI document is read by the import as the same document.", "quantifier": "every OpenAPI document, with paths, operations and schemas of every number, size and nesting", "why_tests_cant": "each of the structures of a document has its own JSON names and rules for what is left out; a name that is misspelled in one direction only, or a field left out although it is not empty, only shows for documents that use it", "anchors": ["openapi/model.go:Model", "openapi/model.go:Schema", "openapi/model.go:MarshalJSON", "openapi/import_openapi.go:Load", "openapi/export_openapi.go:Export", "misc.go:Pretty"]}
{"id": "C114", "title": "A schema written to an OpenAPI file is imported from it", "statement": "A schema that is exported as OpenAPI, written to a JSON file and imported from that file comes back with the same types, actions and head.", "quantifier": "every schema accepted by the parser, with types and actions of every number and size, and every order in which Go visits its maps", "why_tests_cant": "the path goes through the exporter, two sets of JSON rules, the checks of the file and the importer; a loss anywhere on it shows only for schemas that use what is lost", "anchors": ["openapi/export_openapi.go:Export", "openapi/model.go:Model", "openapi/import_openapi.go:Load", "openapi/import_openapi.go:Import", "openapi/model.go:Validate"]}
{"id": "C115", "title": "The operations of an exported document obey the rules of OpenAPI", "statement": "Every operation of the OpenAPI document exported for an accepted source obeys the rules of OpenAPI 3.0 for operations: it has a described response, its parameters are named, placed, typed and different, path parameters and path variables correspond, responses are listed under statuses, and operation ids are unique.", "quantifier": "every accepted source, with actions, inputs and responses of every number, and every order in which Go visits its maps", "why_tests_cant": "whether a document obeys a rule depends on combinations of inputs, paths, headers, statuses and comments that samples do not reach", "anchors": ["openapi/export_openapi.go:ExportToOAS3", "parser.go:parameterSource", "parser.go:parseHttpSpec", "parser.go:validateHttp"]}
{"id": "C116", "title": "The text of an exported document is an OpenAPI document", "statement": "The text that the OpenAPI generator prints for an accepted source is an OpenAPI 3.0 document: every object in it has only the members that the OpenAPI specification allows there, of the right kind and each once, and all the members that it requires.", "quantifier": "every accepted source, with types, actions, parameters and responses of every number and nesting, and every order in which Go visits its maps", "why_tests_cant": "which members are written depends on which of dozens of optional parts of a schema are empty, at every level of the document; samples meet few combinations", "anchors": ["openapi/model.go:MarshalJSON", "openapi/model.go:Schema", "openapi/model.go:Operation", "openapi/export_openapi.go:ExportToOAS3", "openapi/export_openapi.go:oasSchema"]}
{"id": "C117", "title": "Every shape of a Smithy model becomes a type that says the same", "statement": "Importing a Smithy model gives, for every shape that is not just the input or output of an operation, a type with the same local name, documentation, kind, limits, pattern, members, targets and required members; and a schema with the name and version of the service, and the metadata as annotations.", "quantifier": "every Smithy model that is imported, with shapes and members of every number and in every order, every configuration, and every behaviour of the untyped conversions of the libraries", "why_tests_cant": "the shapes of a model are mixed with its operations and services, and each kind has its own traits; samples meet few combinations of kinds, traits and ways in which a limit is written", "anchors": ["smithy/import_smithy.go:ToSadl", "smithy/import_smithy.go:importShape", "smithy/import_smithy.go:importNumericShape", "smithy/import_smithy.go:importStringShape", "smithy/import_smithy.go:importListShape", "smithy/import_smithy.go:importStructureShape", "smithy/import_smithy.go:shapeRefToTypeRef"]}
{"id": "C118", "title": "Every operation of a Smithy model becomes an action that says the same", "statement": "Importing a Smithy model gives, for every operation with an HTTP binding, an action with the same name, documentation, method, path, status, bound inputs and outputs, and errors, and for every operation without one an operation with the same inputs, outputs and errors.", "quantifier": "every Smithy model that is imported, with operations, members and errors of every number and in every order, every configuration, and every behaviour of the untyped conversions of the libraries", "why_tests_cant": "whether the members of a structure are parameters or one body depends on the traits of all of them, and the operations are mixed with the other shapes; samples meet few combinations", "anchors": ["smithy/import_smithy.go:ToSadl", "smithy/import_smithy.go:importOperationShape", "smithy/import_smithy.go:shapeRefToTypeRef"]}
{"id": "C119", "title": "Importing a Smithy model never crashes", "statement": "Importing any Smithy model gives a schema or reports an error; it never panics.", "quantifier": "every Smithy model with named shapes, every configuration, and every behaviour of the untyped conversions of the libraries", "why_tests_cant": "a crash needs a particular reference, trait or kind in any of the shapes or members of a model; the absence of others cannot be sampled", "anchors": ["smithy/import_smithy.go:ToSadl", "smithy/import_smithy.go:importShape", "smithy/import_smithy.go:importTraitsAsAnnotations", "smithy/import_smithy.go:importOperationShape"]}
{"id": "C120", "title": "The examples of Smithy operations are examples of their requests and responses", "statement": "Importing a Smithy model gives, for every example of an operation, an example of its request and one of its response, with the same title, documentation and value, and no others.", "quantifier": "every Smithy model that is imported, with operations and examples of every number, every configuration, and all values in the examples", "why_tests_cant": "examples are values of any shape and occur in any number at any of the operations; a sample shows neither that none is lost nor that none is added", "anchors": ["smithy/import_smithy.go:importOperationShape", "smithy/import_smithy.go:ToSadl"]}
{"id": "C121", "title": "The examples of an OpenAPI document are examples of the model", "statement": "Importing an OpenAPI document gives the model every example of the document, with the schema it belongs to as its target and with the same value, and no others.", "quantifier": "every OpenAPI document that is imported, with schemas of every depth, any number of components, paths and responses, and all values as examples", "why_tests_cant": "examples occur at any depth of nested schemas and in any number of components and operations; a sample shows neither that none is lost nor that none is added", "anchors": ["openapi/import_openapi.go:ToSadl", "openapi/import_openapi.go:convertOasType", "openapi/import_openapi.go:convertOasPath"]}
{"id": "C122", "title": "A model imported from a Swagger document has no examples", "statement": "Importing a Swagger 2.0 document gives a model without examples: none is made up, and those of its definitions, parameters and responses are not carried over.", "quantifier": "every decoded Swagger document that is imported, with definitions of every depth and any number of paths and responses", "why_tests_cant": "that nothing at any depth of any document becomes an example cannot be seen from a sample of documents", "anchors": ["openapi/import_swagger.go:toV3Schema", "openapi/import_swagger.go:toV3Operation", "openapi/import_swagger.go:ImportSwagger"]}
{"id": "C123", "title": "Examples survive the export to OpenAPI and the import from it", "statement": "Exporting a schema to OpenAPI and importing the document gives the examples of the schema back, with the same targets, names and values, and no others.", "quantifier": "every model that can be exported, with types, actions and examples of every number and depth, and every document that is imported again", "why_tests_cant": "every target and value, at any type among any number of types and actions, has to survive two conversions; a sample shows neither that none is lost nor that none is added", "anchors": ["openapi/export_openapi.go:ExportToOAS3", "openapi/export_openapi.go:exportTypeDef", "openapi/import_openapi.go:ToSadl", "openapi/import_openapi.go:convertOasType"]}
{"id": "C124", "title": "The Smithy export shows the examples of actions", "statement": "In the exported Smithy model every example of the request or the response of an action is shown by the operation of that action, under its name, as input or output, with its comment, and no other example is shown.", "quantifier": "every model that can be exported, with any number of actions and examples, every choice of suffixes and namespace, and every order in which Go enumerates its maps", "why_tests_cant": "examples of requests and responses are joined by name through a map, with overwriting and unspecified enumeration order; a sample shows neither that none is lost or mixed up nor that the order does not matter", "anchors": ["smithy/export_smithy.go:sadlExamplesForAction", "smithy/export_smithy.go:examplesFromSADL", "smithy/export_smithy.go:FromSADL"]}
