import json
P=[]
def p(title,statement,quant,why,anchors):
    P.append(dict(id="C%02d"%(len(P)+1),title=title,statement=statement,quantifier=quant,why_tests_cant=why,anchors=anchors))
p("Type and action names are unique in a constructed model",
  "NewModel succeeds on a schema exactly when no two type definitions share a name, none of them reuses a built-in type name, and no two HTTP actions share a name; otherwise it reports an error.",
  "every schema, with any number of types and HTTP actions in any order",
  "a test tries a handful of schemas; uniqueness must hold for every list of definitions, including a clash between the first and last of thousands",
  ["model.go:NewModel","model.go:BaseTypes","schema.go:Schema"])
p("Name lookup returns the definition",
  "On a model built by NewModel, FindType(n) returns the one definition in the schema called n, or the built-in type n, or nothing when there is neither; FindHttp(n) does the same for HTTP actions. A lookup never returns a definition with another name.",
  "every accepted schema and every name",
  "lookup correctness is a statement about all names, including ones not in the schema",
  ["model.go:FindType","model.go:FindHttp","model.go:NewModel"])
p("Validate accepts exactly the conforming values",
  "For every model and named type reached without passing through Union, if Validate terminates then it returns no error exactly when the value conforms to the type: right kind of value, every constraint of the definition met, every nested item/field conforming to its own type.",
  "every model, type, and value of any nesting depth",
  "values and type graphs are unboundedly deep; tests only sample finitely many shapes",
  ["model.go:Validate","model.go:ValidateAgainstTypeSpec","model.go:ValidateStruct","model.go:ValidateArray","model.go:ValidateMap"])
p("Validation outcome does not depend on map iteration order",
  "Whether Validate accepts an object value does not depend on the order in which the Go runtime happens to enumerate the object's keys.",
  "every model, type, object value and every enumeration order at every nesting level",
  "Go randomises map order; a test sees one schedule per run",
  ["model.go:ValidateStruct","model.go:ValidateMap"])
p("Validation terminates",
  "Validate returns (value accepted or error) for every model, type name and value.",
  "every model, type and value",
  "non-termination on some type graph cannot be excluded by running finitely many cases",
  ["model.go:ValidateAgainstTypeSpec"])
p("Integer types enforce their range",
  "A value validated against Int8, Int16, Int32 or Int64 is accepted only if it lies within that type's range; explicit min/max options are enforced inclusively.",
  "every numeric value and every min/max pair",
  "the range is unbounded on both sides and tests check few boundary points",
  ["model.go:ValidateNumber","decimal.go:DecimalValue"])
p("String constraints are enforced exactly",
  "A string is accepted by a String type exactly when its encoded length lies within minsize..maxsize and, if an enumerated list of values is given, it is one of them, otherwise it matches the pattern if one is given.",
  "every string and every combination of constraints",
  "strings are unbounded, and the interaction of constraints is combinatorial",
  ["model.go:ValidateString"])
p("Enum values are exactly the declared symbols",
  "A value is accepted by an Enum type exactly when it is a non-empty string equal to one of the declared symbols.",
  "every enum and every value",
  "must hold for all symbol lists and all strings",
  ["model.go:ValidateEnum"])
p("Struct validation enforces required and known fields",
  "An object accepted by a struct type has every required field, has no field the struct does not declare, and every present field conforms to its declared type; an object with these properties is accepted.",
  "every struct definition and every object",
  "fields and objects are unbounded",
  ["model.go:ValidateStruct","model.go:IsStructField"])
p("Array and map validation enforces sizes and items",
  "An array (map) is accepted exactly when its number of items lies in minsize..maxsize inclusive and every item conforms to the item type.",
  "every collection definition and every collection, of any length",
  "lengths are unbounded",
  ["model.go:ValidateArray","model.go:ValidateMap"])
p("UUID parsing",
  "ParseUUID returns its argument unchanged when it accepts it and the empty UUID otherwise; it accepts exactly the strings of 36 bytes with dashes in the places of the 8-4-4-4-12 form, so every canonical UUID is accepted. (That only hexadecimal digits are accepted is false.)",
  "every string",
  "all strings of all lengths",
  ["uuid.go:ParseUUID","uuid.go:RegExUUID","model.go:ValidateUUID"])
p("Unit values that parse also validate",
  "Every string ParseUnitValue accepts whose number and unit conform to the declared value and unit types is accepted by Validate for that UnitValue type.",
  "every string and every UnitValue type",
  "ranges over all strings",
  ["unitvalue.go:ParseUnitValue","model.go:ValidateUnitValue"])
p("Type equivalence is an equivalence relation",
  "EquivalentTypes is reflexive and symmetric, and equivalent types accept the same values.",
  "every pair of type specifications",
  "all pairs of types",
  ["model.go:EquivalentTypes","model.go:EquivalentTypesByName"])
p("Type equivalence terminates",
  "EquivalentTypes and EquivalentTypesByName return an answer (without crashing) for any two types of a valid model.",
  "every model and pair of types, including recursive ones",
  "recursive type graphs are unbounded",
  ["model.go:EquivalentTypes","model.go:EquivalentTypesByName"])
p("ConvertInlineEnums removes every inline enum",
  "After ConvertInlineEnums succeeds, no struct type has a field declared with an inline Enum; each such field now names an Enum type of the model having the same elements, and all other fields and types are unchanged.",
  "every model",
  "any number of structs and fields",
  ["model.go:ConvertInlineEnums"])
p("ConvertInlineEnums keeps type names unique",
  "ConvertInlineEnums leaves a model with unique type names with unique type names, and FindType of a synthesized name yields the enum of the field that asked for it.",
  "every model",
  "name collisions arise from arbitrary combinations of struct and field names",
  ["model.go:ConvertInlineEnums"])
p("A failing ConvertInlineEnums leaves the model unchanged",
  "When ConvertInlineEnums returns an error, the model is as it was before the call.",
  "every model for which it fails",
  "which prefix of the mutation has happened depends on position of the conflict",
  ["model.go:ConvertInlineEnums"])
p("Parsing terminates",
  "Parsing any SADL source (without include directives) terminates, with a schema or an error.",
  "every token sequence of any length",
  "no finite set of sources excludes an endless loop",
  ["parser.go:ParseNoValidate","parser.go:GetToken","parser.go:UngetToken"])
p("Parsing never crashes",
  "Parsing any SADL source ends with a model or an error value, never with a nil dereference or other panic.",
  "every token sequence",
  "fuzzing samples; the claim is about all sources",
  ["parser.go:parseOperationDirective","parser.go:parseOperationInputs","parser.go:ParseOptions","parser.go:ParseNoValidate"])
p("Token push-back is transparent",
  "Within the parser, reading a token and pushing it back leaves the sequence of tokens to be read unchanged, for every source not at its end; block comments are never delivered.",
  "every parser state and token sequence",
  "all states reachable from all sources",
  ["parser.go:GetToken","parser.go:UngetToken"])
p("References in an accepted source resolve",
  "When parsing with validation succeeds, every type named by a struct field, array item, map key or item, unit-value component, union variant, reference option, HTTP input, output or exception is defined in the model or built in.",
  "every accepted source",
  "all sources; dangling references in rarely used positions escape tests",
  ["parser.go:Validate","parser.go:validateStruct","parser.go:validateArray","parser.go:validateMap","parser.go:validateUnitValue","parser.go:validateReference","parser.go:validateHttp"])
p("Required fields have no default and defaults conform",
  "In a validated model no struct field is both required and defaulted, and every default of a field conforms to the field's type.",
  "every accepted source",
  "all sources",
  ["parser.go:validateStruct"])
p("Pattern and values are mutually exclusive",
  "In a validated model no String type or String struct field has both a pattern and a list of values.",
  "every accepted source",
  "all sources",
  ["parser.go:validateStringDef","parser.go:validateStruct"])
p("HTTP path templates are checked exactly",
  "The path template of an HTTP action is accepted exactly when, before the query part, braces are balanced, not nested, and no brace pair spans a slash.",
  "every string",
  "all strings",
  ["parser.go:validateHttpPathTemplate"])
p("HTTP parameter sources are classified uniquely",
  "Each HTTP input is classified as exactly one of header, path, query or body parameter: header if a header option is given, else path if {name} occurs in the path, else query if an item of the query is key={name}, possibly followed by another equals sign, else body.",
  "every path template, parameter name and option set",
  "all templates and names",
  ["parser.go:parameterSource","parser.go:parseHttpSpec"])
p("HTTP body rules",
  "In a validated model each HTTP action has at most one body input, has one only if the method is POST, PUT or PATCH, has at most one body output per expected response, and none for 204 and 304.",
  "every accepted source",
  "all sources",
  ["parser.go:validateHttp"])
p("HTTP responses are unambiguous",
  "A successfully parsed HTTP action declares at most one expected response and no exception type twice.",
  "every source",
  "all sources",
  ["parser.go:parseHttpExpectedSpec","parser.go:parseHttpExceptionSpec"])
p("Default action naming",
  "An HTTP action without an explicit operation name gets the lower-cased method followed by the capitalised last literal path segment; the name is never empty.",
  "every method and path",
  "all paths",
  ["parser.go:ensureActionName","parser.go:actionName","parser.go:resourceName"])
p("Comment merging",
  "Merging comments is associative, ignores empty comments, trims surrounding blanks, and keeps every non-blank character of the comments in order.",
  "every sequence of comment texts",
  "all strings and sequences",
  ["parser.go:MergeComment","parser.go:EndOfStatement"])
p("Options are checked against the type",
  "An option list is accepted only if every option is either an x_ annotation or one of those acceptable for the type; an unacceptable option is always an error, and absent options leave the type unconstrained.",
  "every token sequence and every type",
  "all option lists",
  ["parser.go:ParseOptions","parser.go:containsOption","parser.go:parseTypeOptions"])
p("A final newline is not significant",
  "A source that parses also parses to the same schema when its final newline is removed.",
  "every source",
  "all sources",
  ["parser.go:ParseTypeSpecElements","parser.go:EndOfStatement","parser.go:UngetToken"])
p("Literals parse to the value they denote",
  "Parsing the token form of any JSON-like value (null, booleans, numbers, strings, arrays, objects, nested arbitrarily) yields that value and consumes exactly its tokens.",
  "every literal value of any nesting depth",
  "unbounded nesting",
  ["parser.go:parseLiteral","parser.go:parseLiteralArray","parser.go:parseLiteralObject"])
p("Decompiled source parses back to the same model",
  "Parsing the SADL source produced from a model by DecompileSadl yields the same types, operations, HTTP actions, and header data.",
  "every model",
  "round-trip over all models; tests use a few files",
  ["unparser.go:DecompileSadl","unparser.go:sadlTypeSpec","unparser.go:sadlHttpSpec","unparser.go:sadlOperationSpec","parser.go:ParseSadlString"])
p("Accepted examples conform to their target",
  "In a validated model, every example whose target is a type conforms to that type; an example whose target is an HTTP action's request or response has every required parameter, no unknown one, and each conforming to the parameter's type.",
  "every accepted source",
  "all sources and examples",
  ["parser.go:validateExample","parser.go:validateExampleAgainstHttpRequest","parser.go:validateExampleAgainstHttpResponse"])
p("Includes merge definitions without duplication",
  "Including a file adds exactly its types, HTTP actions and operations after those already present, and fails if a type would be defined twice; inclusion terminates.",
  "every set of files and include structure",
  "include graphs are unbounded",
  ["parser.go:parseIncludeDirective","parser.go:parseFileNoValidate"])
p("Timestamps survive formatting and parsing",
  "Formatting a UTC timestamp and parsing the text yields the same instant to the millisecond.",
  "every timestamp",
  "all instants",
  ["timestamp.go:String","timestamp.go:ParseTimestamp"])
p("Unit values survive formatting and parsing",
  "Formatting a unit value and parsing the text yields an equal number and unit.",
  "every unit value",
  "all numbers and unit strings",
  ["unitvalue.go:String","unitvalue.go:ParseUnitValue"])
p("Configuration data access",
  "A Data object returns from Get(k) the value last stored by Put(k), other keys are unaffected, and Get(k1,...,kn) returns the value found by following the path k1,...,kn and nothing when the path does not exist.",
  "every data tree, key path and value",
  "all trees and paths",
  ["data.go:Put","data.go:get","data.go:Has"])
p("Data conversions are total and consistent",
  "AsBool, AsString, AsInt, AsStringArray and friends return the value when it has the requested kind and the documented fallback otherwise, and never crash.",
  "every dynamic value",
  "all values",
  ["struct_helpers.go"])
p("Comment formatting preserves text and width",
  "FormatComment keeps every word in order, starts every line with indent and prefix, and produces no line longer than the limit unless it holds a single word.",
  "every comment, indent, prefix and width",
  "all strings and widths",
  ["misc.go:FormatComment"])
p("Capitalisation laws",
  "Capitalize and Uncapitalize change only the first character, are idempotent, and preserve length and the rest of the name.",
  "every string",
  "all strings, including non-ASCII",
  ["misc.go:Capitalize","misc.go:Uncapitalize","misc.go:IsSymbol"])
p("Generators never overwrite existing files unasked",
  "Unless force-overwrite is configured, generating files never changes a file that already exists, and after the first error nothing more is written.",
  "every sequence of file writes and every initial file system",
  "all histories of writes and failures",
  ["generator.go:WriteFile","generator.go:Emit"])
p("Missing optional query parameters are stripped",
  "In generated HTTP traces, query items without a value are removed, all other items are kept unchanged and in order, the path is unchanged, and no dangling ? remains.",
  "every request path",
  "all strings",
  ["httptrace/export_http_examples.go:stripMissingOptionalQueryParams"])
p("OpenAPI export keeps every operation",
  "Exporting a model to OpenAPI yields a document in which every HTTP action appears under its path and method, and fails when two actions share path and method.",
  "every model",
  "all models",
  ["openapi/export_openapi.go:ExportToOAS3"])
p("OpenAPI export references resolve",
  "Every $ref in the exported document names a schema present in the document.",
  "every model",
  "all models and nested type expressions",
  ["openapi/export_openapi.go:oasSchema","openapi/export_openapi.go:exportTypeDef"])
p("OpenAPI export terminates without crashing",
  "Exporting any validated model to OpenAPI returns a document or an error.",
  "every model, including recursive types",
  "recursive types are unbounded",
  ["openapi/export_openapi.go:oasSchema"])
p("OpenAPI type export and import are inverse",
  "Importing the exported form of a type yields the original type.",
  "every type of the model",
  "all types",
  ["openapi/export_openapi.go:exportTypeDef","openapi/import_openapi.go:convertOasType"])
p("Which Smithy type references survive export and import",
  "Converting a type reference to Smithy and back yields the original reference exactly if it is one of the scalar types that Smithy has, or a name other than UUID and Array in a namespace that cannot be confused with the prelude; different references that survive have different Smithy references.",
  "every type reference and namespace",
  "all names",
  ["smithy/export_smithy.go:typeReferenceByName","smithy/import_smithy.go:shapeRefToTypeRef"])
p("Smithy error categories",
  "Each HTTP status is classified into exactly one category consistent with its class, monotone in the status.",
  "every integer status",
  "all integers",
  ["smithy/export_smithy.go:httpErrorCategory"])
p("Which GraphQL scalar types survive export and import",
  "Exporting a scalar type reference to GraphQL and importing it yields the original type exactly for Bool, String, Int32, Float64, and for UUID and Timestamp when configured as custom scalars of their own name; references to struct, enum and union types and inline arrays survive unless they have the name of a GraphQL scalar.",
  "every scalar type name and required flag",
  "all names and configurations",
  ["graphql/export_graphql.go:typeRef","graphql/import_graphql.go:convertTypeName"])
p("Mixed import file kinds are refused",
  "ImportFiles picks one format for a set of files and reports an error unless all files are of the same known format.",
  "every list of file names",
  "all lists",
  ["cmd/sadl/import.go:ImportFiles"])
p("Validation of the parsed model is order independent",
  "Whether a schema passes validation does not depend on the order in which its types are declared.",
  "every schema and every permutation of its types",
  "factorially many orders",
  ["parser.go:Validate","model.go:NewModel"])
p("Validation accepts exactly the valid schemas",
  "A source that parses is accepted by validation exactly when its definitions form a valid schema: type references resolve where validation promises to resolve them, defaults belong to optional fields and conform, no String has both pattern and values, unit values are numeric with a String or Enum unit, examples conform to their targets, and HTTP actions have well-formed paths and obey the body rules.",
  "every source, with any number of definitions and included files",
  "both directions quantify over all schemas: no invalid one accepted, no valid one refused",
  ["parser.go:Parse","parser.go:Validate","parser.go:validateStruct","parser.go:validateHttp","parser.go:validateExample"])
p("Accepted sources are exactly the sentences of the grammar",
  "A source parses exactly when it is a sentence of the SADL grammar, and the schema it gives, comments and annotations included, is the one the grammar denotes; with validation it is accepted exactly when, besides, its names are distinct and that schema is valid.",
  "every source, of any length and nesting, with any included files",
  "both directions range over all token sequences: nothing outside the grammar is accepted or silently reinterpreted, and nothing in it refused",
  ["parser.go:ParseNoValidate","parser.go:parseTypeDirective","parser.go:parseTypeSpec","parser.go:parseOperationDirective","parser.go:parseHttpDirective","parser.go:parseExampleDirective","parser.go:parseIncludeDirective","parser.go:EndOfStatement"])
p("A source has one meaning",
  "The grammar is unambiguous: no file, with the files it includes, denotes two schemas.",
  "every file, with any included files",
  "ranges over all pairs of derivations of all sources",
  ["parser.go:ParseNoValidate","parser.go:parseIncludeDirective"])
p("Exported OpenAPI schemas admit the values of the type",
  "Every value that conforms to a type of the model is admitted by the schema the exported OpenAPI document gives for it, as component and as parameter, body or response of an operation.",
  "every model, every type and every value",
  "all types and values of any depth: a document that refuses data the API accepts breaks generated clients and gateways",
  ["openapi/export_openapi.go:exportTypeDef","openapi/export_openapi.go:oasSchema","validate.go:ValidateAgainstTypeSpec"])
p("Exported OpenAPI schemas admit nothing else",
  "Every value that the schema of a type in the exported OpenAPI document admits conforms to the type.",
  "every model, every type and every value",
  "all types and values of any depth",
  ["openapi/export_openapi.go:exportTypeDef","openapi/export_openapi.go:oasSchema","validate.go:ValidateAgainstTypeSpec"])
p("When the Smithy export succeeds",
  "Exporting a model to Smithy returns an AST exactly when every type is based on a type with a Smithy counterpart, every action has an expected response, pagination annotations are well formed, every exception is a shape and the examples used are objects; otherwise it returns an error naming the exception type, or panics for one of the other reasons. Neither the namespace nor map order matters.",
  "every model, namespace, suffix option and map enumeration order",
  "both directions range over all models",
  ["smithy/export_smithy.go:Export","smithy/export_smithy.go:FromSADL"])
p("Every accepted source can be exported to Smithy",
  "Exporting the model of an accepted source to Smithy returns an AST, without error or panic.",
  "every accepted source",
  "all sources",
  ["smithy/export_smithy.go:FromSADL","smithy/export_smithy.go:defineShapeFromTypeSpec"])
p("References of the exported Smithy AST resolve",
  "Every type, action and operation has its shape, and every reference in the exported Smithy AST leads to a shape of the AST or of Smithy's prelude.",
  "every model that can be exported",
  "all models, of any size",
  ["smithy/export_smithy.go:FromSADL","smithy/export_smithy.go:typeReferenceByName","smithy/export_smithy.go:EnsureNamespaced"])
p("Smithy export and import are inverse on types",
  "Importing the Smithy AST exported from a schema gives back its type definitions, so that the same values conform to them, whether the AST is passed on in memory or through a JSON file.",
  "every schema, every type, every value, and both ways of passing the AST on",
  "all schemas, with any number of types and fields",
  ["smithy/export_smithy.go:defineShapeFromTypeSpec","smithy/import_smithy.go:importStructureShape","smithy/import_smithy.go:ToSadl"])
p("Smithy export and import are inverse on actions",
  "Importing the Smithy AST exported from a schema gives back its HTTP actions and operations: name, method, path, inputs with their place, expected response and exceptions.",
  "every schema and every action and operation of it",
  "all schemas, with any number of actions and parameters",
  ["smithy/export_smithy.go:FromSADL","smithy/import_smithy.go:importOperationShape"])
p("OpenAPI export and import are inverse on actions",
  "Importing the OpenAPI document exported from a schema gives back its HTTP actions: name, method, path, comment, resource, tags, inputs with their place, expected response and exceptions; also when the document was written and read again, which reorders its maps.",
  "every schema, every action of it, and every order of the maps of the document",
  "all schemas, with any number of actions and parameters",
  ["openapi/export_openapi.go:Export", "openapi/import_openapi.go:ToSadl", "openapi/import_openapi.go:convertOasPath"])
p("When generating Go types succeeds",
  "For a source that the parser accepts, generating its Go types produces a file exactly if every type and every action can be written (a condition on each type and action alone); otherwise the generator panics; it never reports an error.",
  "every accepted source, with included files, and all settings of the generator",
  "all schemas, with any number of types, fields and actions",
  ["golang/golang_model.go:CreateModel", "golang/golang_model.go:EmitType", "golang/export_golang.go:nativeTypeName"])
p("When the generated Go file respects the static rules of Go",
  "In the Go file generated from an accepted source every declared name is an identifier and declared once, every type used is declared, the packages imported are exactly those used, functions return what they declare, no type contains itself and keys of maps can be compared, exactly if the schema is sound, which is stated on the names and types of the schema alone.",
  "every accepted source and all settings of the generator",
  "all schemas; a compiler can only be run on some",
  ["golang/golang_model.go:CreateModel", "golang/golang_model.go:EmitStructType", "golang/golang_model.go:EmitEnumType", "golang/export_golang.go:WriteGoFile"])
p("The generated Go types mirror the schema",
  "The generated Go file has, in the order of the schema, a method and a request and a response type for each action and the declarations of each type: struct fields capitalized, with the JSON name of the field, left out when empty exactly if the field is not required, and of the corresponding Go type; union variants, enumeration symbols with their texts; an Error method exactly for the types that are exceptions; and nothing else but the types Timestamp and Decimal where they are used.",
  "every accepted source whose types can be generated, and all settings of the generator",
  "all schemas, with any number of types, fields and actions",
  ["golang/golang_model.go:EmitTypeDefs", "golang/golang_model.go:EmitStructType", "golang/golang_model.go:EmitUnionType", "golang/golang_model.go:EmitEnumType"])
p("Configuration data written as JSON is read back",
  "Data that holds a JSON object nested at most 10000 deep, written by String or DataToFile, is read back by DataFromJsonString or DataFromFile as the same data up to the order of keys. Deeper data and data that is not an object (or null) is written too, but the text is rejected.",
  "every JSON-shaped value, with strings of any characters",
  "all values of any size and depth and all strings",
  ["data.go:DataFromJsonString", "data.go:DataToFile", "data.go:DataFromFile", "misc.go:Pretty"])
p("Equivalent compares values up to the order of keys",
  "For any two JSON values, Equivalent reports true exactly if they are equal up to the order in which the keys of objects, at any depth, are enumerated.",
  "every pair of JSON-shaped values",
  "all pairs of values of any size and depth",
  ["misc.go:Equivalent", "misc.go:Pretty"])
p("Timestamps, UUIDs, unit values and decimals are read back from their JSON encoding",
  "Encoding a Timestamp, UUID, UnitValue or Decimal as JSON and decoding the text gives the same value.",
  "every value of these types",
  "all values; units are arbitrary text",
  ["timestamp.go:MarshalJSON", "timestamp.go:UnmarshalJSON", "uuid.go:UnmarshalJSON", "unitvalue.go:MarshalJSON", "unitvalue.go:UnmarshalJSON", "decimal.go:MarshalJSON"])
p("Settings given by flags override the configuration file and reach the generator",
  "The settings a generator sees are those of its section of the configuration file, overridden by -f and by the options -x key or -x key=value, the last one winning; a setting that is not set has its default; the -server and -client generators have that setting on.",
  "every configuration file and every list of options",
  "all configurations and option lists",
  ["cmd/sadl/main.go:main", "cmd/sadl/export.go:ExportFiles", "generator.go:GetConfigString", "generator.go:GetConfigBool"])
p("When the GraphQL export succeeds",
  "Exporting a model to GraphQL prints a document exactly if each of its types is a struct, an enumeration, a union, an array, a string, a boolean or a number; otherwise it panics; it never reports an error.",
  "every model and every configuration",
  "all models of any size",
  ["graphql/export_graphql.go:Export", "graphql/export_graphql.go:FromSadl"])
p("An exported GraphQL document is valid GraphQL",
  "The text printed by the GraphQL export is a GraphQL document: it follows the grammar, defines no name twice, refers only to types it defines or that are built in, has only object types as members of unions and no empty types.",
  "every accepted model, every configuration of custom scalars and every order in which Go enumerates them",
  "all models of any size, and all enumeration orders of a map",
  ["graphql/export_graphql.go:FromSadl", "graphql/export_graphql.go:EmitStructDef", "graphql/export_graphql.go:EmitEnumDef", "graphql/export_graphql.go:EmitUnionDef", "graphql/export_graphql.go:typeRef"])
p("A GraphQL document is imported completely, or an error is reported",
  "Importing succeeds exactly if there is one file, it can be read and parsed, all its definitions are of known kinds and define new names, and no list is nested in a list. The model then has the type ID and, in order, one type for each enumeration, union and object type that is not a root: with the same name and the same elements, variants or fields, required where they may not be null, with the corresponding types, and with the descriptions, on one line, as comments. Without nested lists the import never panics.",
  "every document and every file system",
  "all documents of any size",
  ["graphql/import_graphql.go:Import", "graphql/import_graphql.go:gqlSchema", "graphql/import_graphql.go:gqlStruct", "graphql/import_graphql.go:gqlEnum", "graphql/import_graphql.go:gqlUnion"])
p("Exporting to GraphQL and importing gives the same types",
  "A model exported to GraphQL and imported again has the same types, up to comments and annotations and the additional type ID.",
  "every accepted model and configuration",
  "all models of any size",
  ["graphql/export_graphql.go:FromSadl", "graphql/import_graphql.go:Import"])
p("When printing HTTP traces crashes",
  "Printing the HTTP traces of a model crashes exactly if, for some action, a request example, or a response example with the name of a request example, is not an object, or there is such a response although the action has no expect; it does not for accepted models whose actions have an expect and whose exceptions are structs.",
  "every model, and every order in which Go enumerates the map of named examples",
  "all models and all enumeration orders",
  ["httptrace/export_http_examples.go:Export", "httptrace/export_http_examples.go:generateHttpTrace"])
p("The trace of a request example is the HTTP request for that example",
  "For a request example of an action, the printed trace contains an HTTP request: the request line with the method, the path with the values of the example in place of the variables and the query parameters that have a value; the headers with the values of the example; and the example of the body as JSON.",
  "every model, action, example and template, and every enumeration order",
  "all templates and values: sequential textual replacement may interfere with earlier replacements",
  ["httptrace/export_http_examples.go:generateHttpTrace", "httptrace/export_http_examples.go:stringExample", "httptrace/export_http_examples.go:stripMissingOptionalQueryParams"])
p("The trace of an exchange shows the response, with its true length",
  "If there is a response example with the name of a request example, the request is followed by an HTTP response with the right status, whose Content-Length is the number of bytes of its body, with the headers of the example, and with the example as JSON body.",
  "every model, action and examples, every enumeration order and every time",
  "all examples, including those with characters of several bytes",
  ["httptrace/export_http_examples.go:generateHttpTrace", "httptrace/export_http_examples.go:dateHeader"])
p("Every request example is shown exactly once",
  "The printed text has, for each action in order, exactly one section for each of its request examples.",
  "every model and every enumeration order",
  "all models and all enumeration orders",
  ["httptrace/export_http_examples.go:Export", "httptrace/export_http_examples.go:generateHttpTrace"])
p("When loading a Swagger document crashes",
  "Loading a decoded Swagger document, also when only to find out whether a file is one, is an error exactly when the document does not claim version 2.0; it crashes exactly when the document claims it but needs a schema without a known type and without a reference, or an array without items; otherwise it gives a model.",
  "every decoded JSON document",
  "all documents: schemas nest to any depth, and may be of any shape",
  ["openapi/import_swagger.go:LoadSwagger", "openapi/import_swagger.go:IsValidSwaggerFile", "openapi/import_swagger.go:toV3", "openapi/import_swagger.go:toV3Schema"])
p("The definitions of a Swagger document become the types that they denote",
  "When a Swagger document is imported, its definitions become types of the same name, and each type has the kind, the fields, which of them are required, the symbols, the sizes, the pattern and the comment that the schema of the definition denotes.",
  "every decoded document that is imported, of any size and nesting",
  "all documents and nestings",
  ["openapi/import_swagger.go:ImportSwagger", "openapi/import_swagger.go:toV3Components", "openapi/import_swagger.go:toV3Schema", "openapi/import_openapi.go:convertOasType", "openapi/import_openapi.go:ToSadl"])
p("The operations of a Swagger document become the actions that they denote",
  "When a Swagger document is imported, its operations become the actions, with the method, the path, the query, the name, the comment, the parameters at their place with their type, the body, the expected response with its headers and type, and the exceptions with their status and type.",
  "every decoded document that is imported",
  "all documents",
  ["openapi/import_swagger.go:toV3Operation", "openapi/import_swagger.go:toV3Paths", "openapi/import_swagger.go:toV3Response", "openapi/import_openapi.go:convertOasPath", "openapi/import_openapi.go:ToSadl"])
p("Importing an OpenAPI document twice gives the same model",
  "The model that results from the import of an OpenAPI document does not depend on the order in which the runtime enumerates the maps of the document, except for the order of types, actions and exceptions.",
  "every document and every enumeration order of its maps",
  "all documents and all enumeration orders: a run sees one order only",
  ["openapi/import_openapi.go:ToSadl", "openapi/import_openapi.go:convertOasPath", "openapi/import_openapi.go:convertOasType"])
p("When a Go server is generated, and what it consists of",
  "From an accepted source, a Go server is generated exactly when every action has a name, an expected response, parameters of text, timestamp or integer types and no anonymous arrays or maps as exceptions; otherwise an error is reported, and the generator never crashes. The server has one handler and one route per action, in order; the route leads requests with the method and the path of the action to its handler.",
  "every accepted source, service name and package",
  "all schemas: actions and parameters are unbounded in number and shape",
  ["golang/golang_server.go:CreateServer", "golang/golang_server.go:EmitServerAdaptor", "golang/golang_server.go:paramAccessor"])
p("Which generated Go servers the Go compiler accepts",
  "The types and the server generated from an accepted source respect the rules of the Go compiler (names declared once and used, types of assignments and cases, imports) exactly when the schema has an action, mentions timestamps, uses no name of the server, has no outputs and no query or body inputs for status 204 and 304, has outputs and not both query and body inputs for other statuses, and has struct types as exceptions.",
  "every accepted source whose types and server are generated, every capitalized service name that is not a built-in type",
  "all schemas: compiling one generated server says nothing about the others",
  ["golang/golang_server.go:EmitServerAdaptor", "golang/golang_server.go:paramAccessor", "golang/golang_server.go:nativeType", "golang/golang_server.go:timestampDefault"])
p("What the handlers of a generated Go server do with a request",
  "A handler of a generated server that compiles refuses a request with status 400 exactly when there are query parameters and the query is malformed, or there is a body input and the body cannot be decoded. Otherwise it calls the implementation with each input read from the query, header, path or body where the action puts it, or with the default; then it sends the expected status, the declared headers and the entity, or the status of the exception that was raised, 500 for others.",
  "every accepted source with a server that compiles, every action, every request and every implementation",
  "all schemas, requests and implementations",
  ["golang/golang_server.go:EmitServerAdaptor", "golang/golang_server.go:paramAccessor", "golang/golang_server.go:stringDefault", "golang/golang_server.go:intDefault", "golang/golang_server.go:timestampDefault"])
p("When a Go client is generated, and what it consists of",
  "From an accepted source, a Go client is generated exactly when every action has an expected response and no anonymous arrays or maps as outputs or exceptions; otherwise an error is reported, and the generator never crashes. The client has one method per action, in order, which sends requests with the method of the action to its path.",
  "every accepted source, service name and package",
  "all schemas: actions and parameters are unbounded in number and shape",
  ["golang/golang_client.go:CreateClient", "golang/golang_client.go:EmitClient"])
p("Which generated Go clients the Go compiler accepts",
  "The types and the client generated from an accepted source respect the rules of the Go compiler exactly when the service is called Crudl or there is a suitable type CrudlClient, some response body is decoded, no name is one that clients use, no query parameter is a UUID, decimal, enumeration or union, headers of responses are texts or timestamps, exceptions are structs, statuses of an action differ, and a server is generated too if a body is sent.",
  "every accepted source whose types and client are generated, every capitalized service name that is not a built-in type, with and without a server",
  "all schemas: compiling one generated client says nothing about the others",
  ["golang/golang_client.go:EmitClient", "golang/golang_client.go:notSet", "golang/golang_client.go:typeFormat"])
p("What the methods of a generated Go client send and give back",
  "A method of a generated client that compiles sends one request: with the method of the action, to its path as it is written (no value is substituted), with each query input that is not zero under the name of the input, with the body input as JSON for PUT, POST and PATCH, and with no header for header inputs. The expected status yields a response with every output from the body or its header; the status of an exception yields that exception; a body that cannot be decoded and any other status yield an error.",
  "every accepted source with a client that compiles, every action, all values of inputs, every response",
  "all schemas, values and responses",
  ["golang/golang_client.go:EmitClient", "golang/golang_client.go:notSet", "golang/golang_client.go:typeFormat"])
p("Which files generating Go writes, and when an error is reported",
  "Generating Go touches only the files asked for (types, server, client) in the directory of the package, and never one that exists unless overwriting is asked for; a file that changes gets the text generated for it. No error is reported exactly when the directory could be made and every file asked for can be generated and is either protected or could be written; then all of them are there. The generator crashes exactly when generating the types does, and then no file has changed. Service name, package and paths are those of the settings, the namespace or their defaults.",
  "all models, settings, output directories, files present and behaviours of the operating system; the last part for every accepted source",
  "all file systems and failures, all combinations of settings",
  ["golang/export_golang.go:Export", "golang/export_golang.go:NewGenerator", "golang/export_golang.go:WriteGoFile", "generator.go:WriteFile"])
p("Java types of fields",
  "For every accepted source without types called like Java's box classes, the Java type that the generator gives to a field, variant, input or output is the one of the mapping: the primitive type for a required number or boolean and its box for an optional one, String, BigDecimal, UUID, Instant or Timestamp, Object, List and Map of the mapped items, the class of the same name for structs, enums, unions and unit values, and the Java type of the supertype for other named types. It is unique. The generator recurses for ever exactly when a named array or map contains itself.",
  "All accepted sources, all types used in them (any nesting, any chain of named types), required or optional, all settings.",
  "Chains of named types can be arbitrarily long or cyclic; tests look at a few.",
  ["java/export_java.go: TypeName, primitiveType"])
p("Java classes mirror types",
  "For every accepted source, the class generated for a struct or union has one member per field or variant, in order, with its name, comment, requiredness, annotations and Java type; each field that is a struct with fields of its own has a class inside it (the last one, if two have the same capitalized name), recursively; an enum has one constant per element with its JSON text; a unit value reads its value and unit according to their types. Only structs, enums, unions and unit values have classes.",
  "All accepted sources, all types, all settings, all orders in which Go's maps may be iterated.",
  "Structs nest to any depth and the map order of the inner classes varies between runs.",
  ["java/export_java.go: CreatePojo, CreateStructPojo, CreateEnumPojo, CreateUnionPojo, CreateUnitValuePojo"])
p("When a Java class can be generated",
  "For every accepted source, the class of a type is generated exactly when each of its members has a Java type and none is called package, no struct inside it (at any depth) would be called like the class around it, members that need a getter have names, and the unit of a unit value maps to a Java name that is known as a type.",
  "All accepted sources, all types of any depth, all settings.",
  "The condition is about every depth of nesting.",
  ["java/export_java.go: CreatePojo, CreateStructPojo, CreateUnionPojo, CreateUnitValuePojo"])
p("Files that generating Java writes",
  "For every accepted source, settings and contents of the file system: every file that generating Java changes is one of the expected ones (the classes of types, the requests, responses, interface and exceptions of the service, the server, the client, the pom), in the directory of its package under the output directory, with the content generated for it; files that exist are not touched unless force-overwrite is set; when there is no error every expected file that may be written has been written; and there is no error exactly when every directory can be made, every part can be generated and every file that is not protected can be written.",
  "All accepted sources, all settings, all initial file systems, all outcomes of creating directories and writing files, all output directories, all map orders.",
  "The set of files depends on the whole schema and settings, and failures can occur at any file.",
  ["java/export_java.go: Export, NewGenerator, EnsurePackageDir, WriteJavaFile, CreateJavaFileFromTemplate, CreatePojoFromDef", "java/java_server.go: CreateServer, ExceptionTypes, CreateRequestPojo, CreateResponsePojo", "java/java_client.go: CreateClient, CreateClientConfig", "java/java_pom.go: CreatePom"])
p("Generated Java server mirrors the actions",
  "For every accepted source, the generated Java server has one method per action, in order, with its HTTP method, path, name, and one parameter per input taken from the query, a header, the path or the body as the action says, with its Java type and default; it sends the expected status with the outputs in headers and the body, and the status of each exception. It is generated exactly when every action has an expected response and the defaults of inputs are strings, numbers or booleans (given that all types have Java types).",
  "All accepted sources without types called like Java's box classes, all settings.",
  "Any number of actions with any combination of inputs, outputs and exceptions.",
  ["java/java_server.go: CreateServerDataAndFuncMap, ActionInfo, ActionName, RequestType, ResponseType, jsonWrapper"])
p("Generated Java client mirrors the actions",
  "For every accepted source, the generated Java client has one method per action, in order, which sends the path variables, query parameters, headers and body as the action says, and turns the expected status into the response with its outputs and the statuses of exceptions into these. It is generated exactly when every action has an expected response, uses GET, PUT, POST or DELETE and has a name if there are outputs (given that all types have Java types).",
  "All accepted sources without types called like Java's box classes, all settings.",
  "Any number of actions with any combination of inputs, outputs and exceptions.",
  ["java/java_client.go: CreateClientDataAndFuncMap"])
p("Generated Java client and server agree",
  "For every accepted source and every action: the inputs that the client is given are those that the implementation gets, null ones replaced by their defaults; a response that the implementation returns is returned by the client with the same outputs; an exception of the action that the implementation throws is thrown by the client with the same object; any other failure is a RuntimeException. Conditions: the names under which inputs and outputs are sent differ, statuses and exception classes differ, path variables and instants in headers are not null, and 500 is not used by the action.",
  "All accepted sources, actions, settings, request and response objects of any content.",
  "Two generated programs must agree for all specifications and all values.",
  ["java/java_server.go: CreateServerDataAndFuncMap", "java/java_client.go: CreateClientDataAndFuncMap"])
p("Files and directories to import",
  "For every list of files and directories given to an import: it is refused exactly when one without a known extension does not exist; otherwise the files that are read are exactly the given files and those in the given directories, at any depth, that have the extension of a format, in the order of the list; and the Smithy importer reads exactly the files chosen for it and merges them in that order.",
  "All lists of paths, all directory trees of any depth, all contents.",
  "Directory trees are unbounded, and errors can occur at any entry.",
  ["cmd/sadl/import.go: expandPaths, ImportFiles", "smithy/import_smithy.go: AssembleModel, expandPaths, Import"])
p("Generated Go client and server agree",
  "For every accepted source whose generated Go types, server and client respect the rules of Go: a method of the client sends its request to the route and method at which the server calls the handler of the same action; the implementation is given the values that the caller put in the request; and the caller gets back the response, the declared error or an unexpected error exactly as the implementation returned it.",
  "All accepted sources, actions, values of requests, implementations, responses, errors.",
  "Sources, values and implementations are unbounded, and client and server are two separate generated programs.",
  ["golang/golang_server.go", "golang/golang_client.go"])
p("Imports of generated Java classes",
  "Every class of another package that a generated Java class refers to, for the types of its members, its annotations, its builder or Lombok, at any depth of nested classes, is imported by its file; the helper class Util is written to the package of every class that refers to it; only a fixed set of classes is ever imported, in alphabetical order and each once; and a file imports all that the files written before it import.",
  "All accepted sources, all settings of the generator, all generated files, all members at any depth of nesting.",
  "Sources and settings are unbounded, nesting has no limit, and the imports of a file depend on all the types generated before it.",
  ["java/export_java.go:88-95 AddImport", "java/export_java.go:190-225 CreatePojo", "java/export_java.go:652-798 TypeName", "java/java_model.go CreateModel"])
p("Strings, comments and brackets of generated Java files",
  "In every generated Java file all string literals, character literals and comments end, all escapes are ones Java knows, and every bracket is closed by its counterpart, whatever the names, comments, patterns, enum values, defaults, paths and headers of the source are.",
  "All accepted sources whose names contain no brackets, quotes, slashes, backslashes or line ends; all comments, patterns and defaults; all settings; all files of the model, the server and the client.",
  "The text of a file is put together from unboundedly many parts of the source, and a single quote or bracket in any of them can break it.",
  ["java/export_java.go:190-650 CreatePojo, CreateStructPojo, CreateEnumPojo, CreateUnionPojo, CreateUnitValuePojo", "java/java_server.go:327-414 mainTemplate, resourcesTemplate, implTemplate", "java/java_client.go:184 clientTemplate", "misc.go:115 FormatComment"])
p("Strings, comments and brackets of generated Go files",
  "In every generated Go file all string and rune literals and comments end, all escapes are ones Go knows, and every bracket is closed by its counterpart, whatever the names, enum values, defaults, query parameters, paths and headers of the source are.",
  "All accepted sources whose names contain no brackets, quotes, slashes, backslashes or line ends, and whose paths, headers and enum values contain no double quotes, backslashes or line ends; all query parameters and defaults; all settings; types, server and client.",
  "The text of a file is put together from unboundedly many parts of the source, and a single quote or bracket in any of them can break it.",
  ["golang/golang_model.go EmitStructType, EmitUnionType, EmitEnumType, enumTemplate", "golang/golang_server.go serverTemplate, paramAccessor", "golang/golang_client.go clientTemplate, queryParams, expectedResults", "golang/export_golang.go:85-99 WriteGoFile"])
p("Names in a model are words of its source",
  "Every name in a parsed model (types, fields at any depth, enum symbols, variants, parameters, exceptions, operations, examples and references to types) is a symbol of the source or of a file it includes, or one of eight words that need not be written; every pattern, allowed value, annotation, path and header is a string of the source, every comment consists of characters of its comments and spaces, every string default is what a string of the source denotes, the query name of a parameter is a piece of the path, and the name of an action that has none is its method and a segment of its path.",
  "All sources that are accepted, all files they include to any depth, all definitions in them.",
  "A name that is altered, cut or taken from the wrong token can come from any of the notations of the language at any depth; tests show a few.",
  ["parser.go parseTypeDirective, parseTypeSpecElements, parseStructFieldDef, parseEnumElement, parseHttpDirective, parseHttpParam, parseOperationDirective, parseExampleDirective, parseOptions", "parser.go:609-662 ensureActionName, ensureResourceName, resourceName", "parser.go:320-360 parseIncludeDirective"])
p("The built-in types a model uses are collected completely",
  "For every model, smithy.AllTypeRefs returns the set of the built-in types that the types of the model lead to through fields, items, keys, units, values and variants, and nothing else; it returns exactly if no such path is infinite or ends in an undefined name.",
  "All models, types of any depth and shape, recursive ones included.",
  "The result depends on paths of any length through the types of a model, and non-termination cannot be observed by a test.",
  ["smithy/export_smithy.go:40-83 AllTypeRefs, noteTypeRefs", "model.go:43-50 FindType"])
p("The Swagger server answers each path with the file it names",
  "sadl's swagger-ui server answers every request for a path that ends with .json with the document, requests for / and /index.html with the index page of the archive in which every occurrence of the example's address is replaced by the name of the document, and every other path with the last entry of that name in the first dist directory of the archive; a path that is not there is not found, and nothing outside of that directory is ever served.",
  "All model names, all archives, all request paths.",
  "Archives and paths are unbounded, and the answer depends on the order of the entries and on names that begin alike.",
  ["cmd/sadl/serve.go:21-87 serveSwaggerUi"])
p("Every request for the document gets the whole document",
  "Under every schedule of concurrent requests, each request for the OpenAPI document that completes is answered with the whole document.",
  "All documents, any number of requests, all interleavings of their steps, all sizes of reads.",
  "Interleavings of steps of concurrent requests cannot be chosen by a test, and there are unboundedly many.",
  ["cmd/sadl/serve.go:27-64 serveSwaggerUi, docContent"])
p("The cached archive is the archive",
  "After any history of runs, with failures of the network and of the disk and crashes at any point, the file that the swagger-ui server uses as the archive is absent or the complete archive, and different releases are kept in different files.",
  "All histories of runs, all responses, all points at which a write is cut off, all releases.",
  "Crash points and histories cannot be enumerated by tests.",
  ["cmd/sadl/serve.go:89-117 cacheSwaggerDist", "cmd/sadl/main.go:175-181 fileExists"])
p("Importing an OpenAPI file does not crash",
  "Importing any OpenAPI file that its validation accepts returns a model or an error, and never crashes; the model of a document without a usable title is named after the file.",
  "All documents: any schemas of any depth, references, parameters, responses and paths; all file names.",
  "Documents are unbounded trees, and each of the crashes depends on a combination that a test has to think of.",
  ["openapi/import_openapi.go:23-68 Load, Import", "openapi/import_openapi.go:126-215 ToSadl", "openapi/import_openapi.go:217-391 convertOasType", "openapi/import_openapi.go:393-609 convertOasPath", "openapi/model.go:32-76 Validate"])
p("The examples of an imported model are those of its document",
  "Under every schedule of concurrent conversions of OpenAPI documents, and after any history of earlier ones, including those that failed, each conversion that succeeds returns a model with the examples of its own document.",
  "All documents, any number of calls, all interleavings of their steps, all points at which a call fails.",
  "Interleavings of concurrent calls cannot be chosen by a test, and there are unboundedly many.",
  ["openapi/import_openapi.go:122 examples", "openapi/import_openapi.go:126-215 ToSadl", "openapi/import_openapi.go:240-247 convertOasType"])
p("The type of the target of an example is found",
  "For every model and every target of an example (names separated by dots: a type, or the request or response of an action, then fields) FindExampleType returns the type specification that the target refers to, which is the one that the example was checked against when the model was parsed, or reports an error if there is none; it never crashes.",
  "every model, every target",
  "all schemas, all paths of names of any length",
  ["model.go:FindExampleType", "parser.go:validateExample"])
p("Examples appear in the exported OpenAPI document",
  "Every example of the schema appears in the exported OpenAPI document at the place it is about: the schema of the type, the parameter or the body of the request, or the body or header of the response of the action; and the document shows no other examples.",
  "every model, every example, every order of the map of paths",
  "any number of types, actions and examples, in any order; the order of Go maps",
  ["openapi/export_openapi.go:ExportToOAS3", "openapi/export_openapi.go:FindOperation"])
p("The head of a schema survives OpenAPI",
  "A document exported to OpenAPI states the name, comment, version, server and license of the schema; written to a file, it passes the checks of the import, and the imported schema has the same name, comment, version, server and license.",
  "every model that is exported, every order of the map of paths, every file name",
  "the schema may have any name, annotations, base and actions",
  ["openapi/export_openapi.go:ExportToOAS3", "openapi/model.go:Validate", "openapi/model.go:ValidateInfo", "openapi/model.go:ValidatePaths", "openapi/import_openapi.go:Import", "openapi/import_openapi.go:ToSadl"])
p("A model printed as JSON can be loaded again",
  "The JSON text that is printed for a model is accepted as input again, and the model loaded from it is the same: types, fields, defaults, examples, operations and actions.",
  "every model, with types and literals of every size and nesting",
  "a schema may combine any of the fields of all its structures, empty or not, nested to any depth; a field whose JSON name is misspelled, shared by two structures or left out when zero only shows for the schemas that use it",
  ["parser.go:LoadModel", "cmd/sadl/export.go:ExportFiles", "misc.go:Pretty", "schema.go:Schema", "schema.go:TypeSpec", "decimal.go:MarshalJSON", "decimal.go:UnmarshalJSON", "graphql/import_graphql.go:gqlSchema", "openapi/import_openapi.go:ToSadl"])
p("An OpenAPI document printed as JSON can be read again",
  "The JSON text that is printed for an exported OpenAPI document is read by the import as the same document.",
  "every OpenAPI document, with paths, operations and schemas of every number, size and nesting",
  "each of the structures of a document has its own JSON names and rules for what is left out; a name that is misspelled in one direction only, or a field left out although it is not empty, only shows for documents that use it",
  ["openapi/model.go:Model", "openapi/model.go:Schema", "openapi/model.go:MarshalJSON", "openapi/import_openapi.go:Load", "openapi/export_openapi.go:Export", "misc.go:Pretty"])
p("A schema written to an OpenAPI file is imported from it",
  "A schema that is exported as OpenAPI, written to a JSON file and imported from that file comes back with the same types, actions and head.",
  "every schema accepted by the parser, with types and actions of every number and size, and every order in which Go visits its maps",
  "the path goes through the exporter, two sets of JSON rules, the checks of the file and the importer; a loss anywhere on it shows only for schemas that use what is lost",
  ["openapi/export_openapi.go:Export", "openapi/model.go:Model", "openapi/import_openapi.go:Load", "openapi/import_openapi.go:Import", "openapi/model.go:Validate"])
p("The operations of an exported document obey the rules of OpenAPI",
  "Every operation of the OpenAPI document exported for an accepted source obeys the rules of OpenAPI 3.0 for operations: it has a described response, its parameters are named, placed, typed and different, path parameters and path variables correspond, responses are listed under statuses, and operation ids are unique.",
  "every accepted source, with actions, inputs and responses of every number, and every order in which Go visits its maps",
  "whether a document obeys a rule depends on combinations of inputs, paths, headers, statuses and comments that samples do not reach",
  ["openapi/export_openapi.go:ExportToOAS3", "parser.go:parameterSource", "parser.go:parseHttpSpec", "parser.go:validateHttp"])
p("The text of an exported document is an OpenAPI document",
  "The text that the OpenAPI generator prints for an accepted source is an OpenAPI 3.0 document: every object in it has only the members that the OpenAPI specification allows there, of the right kind and each once, and all the members that it requires.",
  "every accepted source, with types, actions, parameters and responses of every number and nesting, and every order in which Go visits its maps",
  "which members are written depends on which of dozens of optional parts of a schema are empty, at every level of the document; samples meet few combinations",
  ["openapi/model.go:MarshalJSON", "openapi/model.go:Schema", "openapi/model.go:Operation", "openapi/export_openapi.go:ExportToOAS3", "openapi/export_openapi.go:oasSchema"])
p("Every shape of a Smithy model becomes a type that says the same",
  "Importing a Smithy model gives, for every shape that is not just the input or output of an operation, a type with the same local name, documentation, kind, limits, pattern, members, targets and required members; and a schema with the name and version of the service, and the metadata as annotations.",
  "every Smithy model that is imported, with shapes and members of every number and in every order, every configuration, and every behaviour of the untyped conversions of the libraries",
  "the shapes of a model are mixed with its operations and services, and each kind has its own traits; samples meet few combinations of kinds, traits and ways in which a limit is written",
  ["smithy/import_smithy.go:ToSadl", "smithy/import_smithy.go:importShape", "smithy/import_smithy.go:importNumericShape", "smithy/import_smithy.go:importStringShape", "smithy/import_smithy.go:importListShape", "smithy/import_smithy.go:importStructureShape", "smithy/import_smithy.go:shapeRefToTypeRef"])
p("Every operation of a Smithy model becomes an action that says the same",
  "Importing a Smithy model gives, for every operation with an HTTP binding, an action with the same name, documentation, method, path, status, bound inputs and outputs, and errors, and for every operation without one an operation with the same inputs, outputs and errors.",
  "every Smithy model that is imported, with operations, members and errors of every number and in every order, every configuration, and every behaviour of the untyped conversions of the libraries",
  "whether the members of a structure are parameters or one body depends on the traits of all of them, and the operations are mixed with the other shapes; samples meet few combinations",
  ["smithy/import_smithy.go:ToSadl", "smithy/import_smithy.go:importOperationShape", "smithy/import_smithy.go:shapeRefToTypeRef"])
p("Importing a Smithy model never crashes",
  "Importing any Smithy model gives a schema or reports an error; it never panics.",
  "every Smithy model with named shapes, every configuration, and every behaviour of the untyped conversions of the libraries",
  "a crash needs a particular reference, trait or kind in any of the shapes or members of a model; the absence of others cannot be sampled",
  ["smithy/import_smithy.go:ToSadl", "smithy/import_smithy.go:importShape", "smithy/import_smithy.go:importTraitsAsAnnotations", "smithy/import_smithy.go:importOperationShape"])
p("The examples of Smithy operations are examples of their requests and responses",
  "Importing a Smithy model gives, for every example of an operation, an example of its request and one of its response, with the same title, documentation and value, and no others.",
  "every Smithy model that is imported, with operations and examples of every number, every configuration, and all values in the examples",
  "examples are values of any shape and occur in any number at any of the operations; a sample shows neither that none is lost nor that none is added",
  ["smithy/import_smithy.go:importOperationShape", "smithy/import_smithy.go:ToSadl"])
p("The examples of an OpenAPI document are examples of the model",
  "Importing an OpenAPI document gives the model every example of the document, with the schema it belongs to as its target and with the same value, and no others.",
  "every OpenAPI document that is imported, with schemas of every depth, any number of components, paths and responses, and all values as examples",
  "examples occur at any depth of nested schemas and in any number of components and operations; a sample shows neither that none is lost nor that none is added",
  ["openapi/import_openapi.go:ToSadl", "openapi/import_openapi.go:convertOasType", "openapi/import_openapi.go:convertOasPath"])
p("A model imported from a Swagger document has no examples",
  "Importing a Swagger 2.0 document gives a model without examples: none is made up, and those of its definitions, parameters and responses are not carried over.",
  "every decoded Swagger document that is imported, with definitions of every depth and any number of paths and responses",
  "that nothing at any depth of any document becomes an example cannot be seen from a sample of documents",
  ["openapi/import_swagger.go:toV3Schema", "openapi/import_swagger.go:toV3Operation", "openapi/import_swagger.go:ImportSwagger"])
p("Examples survive the export to OpenAPI and the import from it",
  "Exporting a schema to OpenAPI and importing the document gives the examples of the schema back, with the same targets, names and values, and no others.",
  "every model that can be exported, with types, actions and examples of every number and depth, and every document that is imported again",
  "every target and value, at any type among any number of types and actions, has to survive two conversions; a sample shows neither that none is lost nor that none is added",
  ["openapi/export_openapi.go:ExportToOAS3", "openapi/export_openapi.go:exportTypeDef", "openapi/import_openapi.go:ToSadl", "openapi/import_openapi.go:convertOasType"])
p("The Smithy export shows the examples of actions",
  "In the exported Smithy model every example of the request or the response of an action is shown by the operation of that action, under its name, as input or output, with its comment, and no other example is shown.",
  "every model that can be exported, with any number of actions and examples, every choice of suffixes and namespace, and every order in which Go enumerates its maps",
  "examples of requests and responses are joined by name through a map, with overwriting and unspecified enumeration order; a sample shows neither that none is lost or mixed up nor that the order does not matter",
  ["smithy/export_smithy.go:sadlExamplesForAction", "smithy/export_smithy.go:examplesFromSADL", "smithy/export_smithy.go:FromSADL"])
with open("/verif/properties.jsonl","w") as f:
    for x in P: f.write(json.dumps(x)+"\n")
print(len(P))
