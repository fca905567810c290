# Formal model of boynton/sadl in Lean 4

## 1. Approach

The Go code of `/repo` is modelled function by function as total, computable Lean
functions in `lean/Verif/Model/*.lean`.  Every definition cites the file and lines
it models.  Specifications that do not use the model's helpers live in
`lean/Verif/Spec/*.lean`; the property theorems are in `lean/Verif/Props/*.lean`
(named `Cnn_...`), supporting lemmas in `lean/Verif/Lemmas/*.lean`.

Conventions

* A Go `(value, error)` return becomes `Out` = `ok v | err msg | panic msg`; `panic`
  stands for a Go run-time panic (nil dereference, index out of range, `panic()`).
* Potentially endless recursion becomes a fuel argument; `none` means "out of fuel".
  "Diverges" is then "`none` for every fuel", "terminates" is "some fuel suffices".
* A Go map is an association list.  Its order stands for the order in which the Go
  runtime happens to enumerate it; theorems quantify over all lists, hence over all
  enumeration orders.
* Go strings are modelled as Lean `String` (valid UTF-8) except where single bytes
  matter, where lists of bytes are used.
* `*T` is `Option T`.  Pointer identity is modelled only in `EquivalentTypes`.
* Where the code has a bug, the model has the bug.  A property that is false of the
  code is stated in full, refuted by a theorem with a concrete witness
  (`..._refuted`), and the part that does hold is proved (`..._partial`).

## 2. Plan per property

| id | model | proof |
|----|-------|-------|
| C01, C02 | `NewModel`, `FindType`, `FindHttp` | fold invariant over the list of definitions |
| C03, C05–C10 | all `Validate*` functions, fuelled | inductive relation `Conforms` as spec; induction on fuel / derivation; divergence of Union by induction on fuel |
| C04 | same | permutation invariance, deep, by induction on the permutation relation |
| C11 | `ParseUUID` on characters | direct; refute "only" |
| C12 | `ParseUnitValue`, `ValidateUnitValue` | refuted by witness, partial for long numbers |
| C13, C14 | `EquivalentTypes*` with pointer identities | refuted by witnesses; partial on the sound fragment |
| C15–C17 | `ConvertInlineEnums` as state transformer | induction over types and fields; witnesses |
| C18–C20 | parser over token lists with the three-register push-back | measure argument: no function lengthens the remaining input, each loop shortens it |
| C21–C23, C26, C34, C52 | `Parser.Validate` and its helpers | inversion of successful runs |
| C24, C25, C28 | path-template automaton, `parameterSource`, `actionName` | invariants over the character list |
| C27, C30, C32 | parser functions | invariants over parser runs; induction on values for literals |
| C31 | parser functions | a simulation between the runs on a source and on the same source with one more newline |
| C29 | `MergeComment` | list lemmas about trimming |
| C33 | unparser as a token producer, composed with the parser | symbolic execution lemmas, induction over lists of definitions; refutations for the lossy cases |
| C35 | includes over a file map, fuelled | induction on fuel; acyclic include graphs by well-founded rank |
| C36 | `Timestamp.String`, `ParseTimestamp` on characters | digit lemmas |
| C37 | `UnitValue.String`, `ParseUnitValue` | `ParseDecimal`/`Text` are parameters with recorded assumptions |
| C38, C39 | `Data`, `struct_helpers.go` | case analysis, induction on paths |
| C40, C41 | `misc.go` | invariants over the word list; byte-level model for `Capitalize` |
| C42 | `Generator` over an abstract file system | induction over write histories |
| C43 | `stripMissingOptionalQueryParams` | split/join lemmas |
| C44–C47 | OpenAPI exporter/importer | structural, refutations by witness; C46 has an exact condition on the schema (`OasReady`), by following the document through the whole export |
| C48, C49 | Smithy name conversion | case analysis |
| C58–C60 | `smithy.FromSADL` and all it calls, on an abstract AST | the steps of the export as one equivalence; invariants over the growing map of shapes |
| C61, C62 | `smithy.ToSadl` and all it calls, after `FromSADL`, with the trait values changed as JSON changes them | export and import of each kind of shape cancel; the loop over the shapes recovers the definitions in order |
| C63 | `openapi.ToSadl` after `Export`, with the actions | export and import of each parameter, body, response and exception cancel; the loop over paths and methods is a permutation of the actions |
| C64 | `goModel`: CreateModel with EmitInterface, EmitTypeDefs, EmitType and nativeTypeName, up to the declarations it writes | exact success conditions of each function, by induction over fields, types and actions |
| C65 | the declarations of the generated file and the rules as predicates on them | the names, types and packages of the file as functions of the schema; the rules then translate into conditions on the schema |
| C66 | the declarations of the generated file | each declaration is related to the definition it comes from |
| C67 | `prettyText`, `dataString`, `dataFromJson`: the JSON texts of encoding/json, character by character | the reader is run on the printed text by induction on the document; the keys of objects are sorted by the printer |
| C68 | `equivalent` on top of `prettyText` | printing is injective on documents because the reader inverts it; sorting gives a normal form |
| C69 | the MarshalJSON and UnmarshalJSON methods with the JSON string reader | escapes make a literal longer than what it stands for, which gives the converse for units |
| C70 | `generatorConf`, `runExport`, `configString`, `configBool`, `configInt` | induction over the list of options |
| C71 | `exportText`, `fromSadl`, `emitTypeDef` | induction over the types; a panic is a value of the model |
| C72 | the exported text, character by character; a scanner and a reader for GraphQL type definitions as specification | the scanner and the reader are run on the text by induction over types, fields, elements and variants; the validity rules are then compared with those said of the schema, clause by clause |
| C73 | `gqlImport`, `gqlSchema`, `gqlDefs`, `gqlStruct`, `fieldType` | induction over the definitions and over the fields |
| C74 | the exported text, read by the GraphQL reader of the specification and imported | the document that the text reads as is imported definition by definition; equality with the original is analysed by the kind of each field's type |
| C75 | `traceExport`, `generateHttpTrace`, `traceRequests`, `traceResponses` | induction over the examples, the exceptions and the actions; a panic is a value of the model |
| C76 | `traceRequest`, `traceInputs`, `replaceAll`, `stripMissing`; HTTP messages, templates and targets as specification | a template is a list of pieces; induction over the inputs with the pieces partly filled; the message is unique (isHttp_unique) |
| C77 | `traceResponse`, `traceOutputs`; HTTP messages as specification | induction over the examples for the last answer, over the outputs for the headers |
| C78 | `traceExport`, `traceSections` | induction over the examples: the keys of the map are the names of the request examples |
| C79 | `toV3` and its parts on decoded JSON values; supported schemas and the schemas that a document needs as inductive specification | induction over the schemas; each loop succeeds or crashes according to a condition on its elements |
| C80 | `importSwagger`: `toV3` followed by `toSadl`; the meaning of schemas as mutual inductive relation | mutual induction over the meaning; Forall2 over definitions and types |
| C81 | `toV3Operation`, `toV3Params`, `toV3Responses`, then `convertOasPath`; what an operation denotes as specification | inversion of the two conversions; Forall2 over parameters and responses |
| C82 | `toSadl` on documents whose maps are lists in enumeration order | loops as collections of independent steps; a permutation of the steps permutes the results |
| C83 | `goServer`: handlers and routes as data, with their exact text; `GoServable` on the schema | each generator function succeeds exactly when its condition holds, by induction over inputs, outputs, exceptions and actions |
| C84 | `GoServerCompiles`: rules of Go on the generated code; `GoServerSound` on the schema alone | each rule is shown equivalent to a condition on the schema; scoping by induction over the steps of a handler |
| C85 | `RunHandler`: the meaning of generated handlers; `Delivered` and `Answered`: what the schema says | induction over the steps of a handler; case analysis on the kind of each parameter |
| C86 | `goClient`: methods as data, with their exact text; `GoCallable` on the schema | each generator function succeeds exactly when its condition holds, by induction over inputs, outputs, exceptions and actions |
| C87 | `GoClientCompiles`: rules of Go on the generated code; `GoClientSound` on the schema alone | each rule is shown equivalent to a condition on the schema |
| C88 | `RunCall` and `ReadReply`: the meaning of generated methods; `SentFor` and `ReadFor`: what the schema says | shown equivalent by induction over inputs and outputs |
| C89 | `goExport`: settings, paths (`filepath.Join`, `Clean`), the three steps and the file system with arbitrary failures | induction over the steps; files of different kinds have different paths because cleaning a path keeps its last name |
| C90 | Model/Java.lean: javaTypeStep/javaTypeN (TypeName with a bound on the depth of the recursion), javaType. | The recursion is monotone in the bound; a counting argument over the named types shows that a result, if there is one, appears within 2n+4 steps; soundness by induction on the depth and completeness by induction on the specification's derivation. |
| C91 | Model/Java.lean, Model/JavaClass.lean: javaMember(s), javaNested, javaClassOf, javaInner(s), javaStruct, javaVariant(s), javaUnion, javaConsts, javaUnit, javaBody; the order of maps is a parameter. | Induction on the size of the fields; the map of inner classes is characterised by the last field of each name; permutation of keys. |
| C92 | As for C91. | Both directions by induction on the size of the fields. |
| C93 | Model/JavaGenerate.lean, JavaExport.lean, JavaPom.lean, JavaServer.lean, JavaClient.lean; the file system and the result of each system call are parameters; the generator's Err field is the state of a run. | A run is a list of steps, each writing one file; the invariant is that files differ from the start only at paths of steps already done; the first failing step decides the error. |
| C94 | Model/JavaServer.lean: javaResource (what a method of the server consists of) and javaResourcesText (its text). | Each part of a method is characterised by a small relation; the list by Forall₂. |
| C95 | Model/JavaClient.lean: javaCall (what a method of the client consists of) and its text. | As for C94. |
| C96 | Spec/JavaWire.lean: what the generated methods do (send, bind parameters, reply, receive), over the structured methods of C94 and C95. | The list of values that are not null has a unique entry under each name; first exception with a status or class is the only one. |
| C97 | Model/Walk.lean: filepath.Walk over a tree of entries, some of which cannot be read; smithyPaths, mergeFiles, assembleModel over an abstract Smithy library. | Induction over the tree; FileBelow and DirBelow (Spec/Walk.lean) say what is in it. |
| C98 | Spec/GoWire.lean: what is between client and server (query, JSON, headers) and which values survive it. | From C85 (what the handler does) and C88 (what the client does): the query that the client writes is split and decoded again, part by part, by induction on the inputs. |
| C99 | Spec/JavaImports.lean: the classes that a type, a member, a class and a file refer to, written from the generated text; the classes that can be imported. | Lemmas/JavaImports.lean: the notes taken while a type is named cover the type and its annotations; by induction on the size of the fields this goes up to classes and files; the notes only grow from file to file (Chain), and the insertion keeps the imports sorted. |
| C100 | Spec/JavaLex.lean: a scanner of Java's strings, comments and brackets after the Java Language Specification, and the texts of a source that can be written in Java. | Lemmas/JavaLits.lean (made by tools/javalits.py): what each literal of the templates does to the scanner. Lemmas/JavaLex*.lean: every text leaves the scanner where it was, by induction on lists of members, nested classes, comment lines and escapes; the names in the files are plain because the specification of the files (C93) takes them from the source. |
| C101 | Spec/GoLex.lean: a scanner of Go's strings, comments and brackets after the Go specification, and the names of a source that can be written in Go. | Lemmas/GoLits.lean (made by tools/golits.py): what each literal of the generator does to the scanner. Lemmas/GoLexText.lean: every text leaves the scanner where it was if its names are plain. Lemmas/GoLexNames.lean: the names in the files come from the source, by induction on the lists of types, fields, actions and parameters. |
| C102 | Spec/Words.lean: which names, texts and comments may occur in each part of a schema, and those of the tokens of a source. | Lemmas/Words.lean, Lemmas/WordsSource.lean: induction on the derivation of the source in the grammar (C54), including the mutual one of types and fields, and on the depth of includes. |
| C103 | Model/TypeRefs.lean: the two functions, with a bound on the nesting of calls that is quantified over. Spec/TypeRefs.lean: the steps from a type to the types it is made of, the built-in types reached, and groundedness. | Lemmas/TypeRefs.lean: induction on the number of nested calls, and on groundedness. |
| C104 | Model/Serve.lean: the prefix, the map of files and the handler of requests. Spec/Serve.lean: the directory, the entry of a name, the replacement of a text, and what a request is answered with. | Lemmas/Serve.lean: the prefix is that of the first entry under dist (pieces of a path), the map holds the last entry of each name (induction on the archive), replacement by induction on the length. |
| C105 | Model/Serve.lean: the one reader all requests share, and each request as the steps of http.ServeContent; a schedule says which request makes a step and how much it may read. | Lemmas/Serve.lean: an invariant of all requests under all schedules, and one of a request that is alone, with a measure for its end. |
| C106 | Model/Serve.lean: what is at the path, what the network and the disk do in a run, and the runs one after the other. | Induction on the history of runs. |
| C107 | Model/OpenApiFile.lean: what a file decodes to, with the objects that may be missing, its validation and import. Spec/OpenApiSafe.lean: the documents that are safe. | Lemmas/OpenApiSafe.lean: for schemas by induction on their size, for the rest by induction on the lists; each function is shown not to crash on what is safe, and not to succeed on anything else. |
| C108 | Model/OpenApiShared.lean: the variable of the package and each call as the steps that reset, read and write it; a schedule says which call makes a step and whether it fails. | Lemmas/OpenApiShared.lean: an invariant of a call that is alone, over the schedule; the link to the conversion itself by the examples it collects. |
| C109 | `FindExampleType` over the indexes of a model | induction on the path; an inductive relation `ExampleType` as the specification; the check of the parser through `Valid` (C53) |
| C110 | the loop over the examples in `ExportToOAS3` | an invariant of the loop: what each place shows is determined by the list of examples so far (`Shown`) |
| C111 | the head of the document and its checks | case analysis over the annotations; the keys of the paths by the invariant of the export loops (`DocFor`) |
| C112 | encoding/json on the structures of schema.go (names, order, omitted fields, embedded structures), the printer and reader of JSON texts of C67, and `LoadModel` | induction over the nesting of type specifications: what is written for each structure is found again among the members of the structures it is embedded in; the text by `jRead_pretty` |
| C113 | encoding/json on the structures of openapi/model.go in both directions, with the printer and reader of JSON texts of C67 (`docText`, `loadOas`) | induction over the nesting of schemas, then structure by structure: what is written for each field is found among the members and read back; the text by `jRead_pretty` |
| C114 | the exporter of C47/C63/C111, the printer and reader of C113, `validateFile` and `toSadl` in one path | `kept_document` shows that the document of a kept schema meets the hypotheses of C113; reading permutes maps and drops empty ones, which C63 allows (`SameSchemas`, `SamePaths`) |
| C115 | the exporter of C44 and the parser; the rules are stated on the document (`OperationRules`, `FurtherRules`), the condition on the action (`Orderly`) | every operation is that of an action (C44) that describes it; the parser invariant `PlacedIn` says that a path parameter has a variable; descriptions and keys of responses by induction over the exceptions; `showInt` is injective |
| C116 | the printed text of C113; OpenAPI as a predicate on JSON documents, object by object (`OpenApiObject`) | the members written for each structure are a sublist of its names and each is of its kind; what must not be empty comes from C111 and C115; a document of any schema can be printed, by induction over the depth of its types (`limits_document`); conversely the required members give back completeness |
| C117 | the importer as a function on Smithy ASTs (SmithyImport.lean); what a type says of a shape as a predicate on both (`ShapeKept`) | the loop over the shapes only adds types, by induction; the shapes it leaves out are inputs and outputs of operations, by induction over the scan; each kind of shape by its own function |
| C118 | the importer as a function on Smithy ASTs (SmithyImport.lean); what an action or operation says of a Smithy operation as predicates (`OpActionKept`, `PlainOpKept`) | the loop over the shapes only adds actions and operations, by induction; members and errors by induction over their lists; the query string by induction with its accumulator |
| C119 | panics of the importer as values of the model; the safe shapes as a predicate on ASTs (`ShapeSafe`) | each function gives a value exactly under a condition and a panic otherwise (`OkIff`), composed over the sequence of calls and by induction over traits, members, errors and shapes |
| C120 | the examples that the importer makes, as a list; what an example of an operation says as a predicate (`IsOpExample`) | the examples of the schema are the concatenation of those of its operations, by induction over the shapes; membership by induction over the trait |
| C121 | the examples that the importer records, as a list; which examples a schema gives as an inductive predicate (`Gives`), and those of a document as `ComponentGives` and `PathGives` | induction on the size of schemas for `convertOasType`, then over the components, headers, methods and paths |
| C122 | the conversion of a Swagger document to an OpenAPI document, followed by its import | no schema that the conversion makes gives an example, by mutual induction over the decoded value; then C121_examples_partial |
| C123 | export and import one after the other, on the document as a value; the last example of a type as `lastOfType` | no schema that the export makes gives an example except those of the types, by induction over the depth of the export; then C110_types_partial and C121_examples_partial |
| C124 | the lists of examples joined by name in a map, any enumeration of it that is a permutation; the last example of a target and name as `lastExample` | the content of the map at every name by induction over the list of examples, once for requests and once for responses; then the trait of the shape by induction over the actions, and the shapes from C60 |
| C50 | GraphQL name conversion | case analysis |
| C51 | `ImportFiles` | induction over file list |
| C53 | `Parser.Validate`, all rules | equivalence with the specification `Spec/Valid.lean`, rule by rule |
| C54, C55 | every parsing function of `parser.go` | a grammar (`Spec/Grammar.lean`) as inductive relations; a calculus (`GrammarIs`) that describes each parsing function exactly, composed bottom up; induction on the length of the source |
| C56, C57 | `exportTypeDef`, `oasSchema`, the operations of the document | a semantics of OpenAPI schemas (`Spec/OpenApiValues.lean`): which values a schema admits; induction on conformance, and on admission, through the references of the document |

## 3. Trusted base

* Lean's kernel and the axioms `propext`, `Classical.choice`, `Quot.sound`.
* The reading of the Go code that the model transcribes.
* Not in the repository, hence not modelled, only assumed: the lexer
  `github.com/boynton/scanner` (the parser model starts from its token sequence),
  Go's `regexp`, `math/big`, `time`, `encoding/json`, `text/template`,
  `smithylib`, the GraphQL parser, `http.StatusText`, the clock.  They appear as parameters or are absent, except for
  `time.Parse` of one layout (`Model/Timestamp.lean`) and the JSON texts written and read by
  `encoding/json` (`Model/Json.lean`), which are transcribed.

* What `GoCompiles`, `GoServerCompiles` (`Spec/Golang.lean`, `Spec/GoServer.lean`) say of the Go compiler: they state the rules
  that generated code is known to run into (names, scopes, `:=`, unused variables, imports, types of
  assignments, conversions and cases, recursive types, keys of maps), not all rules.  They are a little stricter than Go:
  a type may not have the name of a variable of a handler or of a predeclared name that servers use.
* What `RunHandler` says of the generated handlers: `ParseForm`, `mux.Vars`, `strconv.ParseInt` (transcribed), conversions
  between integer types (two's complement), and that a template turns the panic of a function into an error (`safeCall`).
  `fmt.Sprint` of a default is a parameter; of a `*string` it gives an address.

Every theorem depends on no other axioms than these three.

## 4. What is modelled

The list is made by `tools/coverage.py` from the citations in the model.  A function counts as
modelled if a definition cites lines of it; what a definition leaves out or simplifies is said in
its comment and in the head of its file.  Nothing is modelled of printing to the terminal, of
reading and writing files (except for `Generator.WriteFile` and includes, over an abstract file
system), of how `text/template` evaluates templates in general, and of `net/http` beyond the
requests that the Swagger server and the generated handlers answer.

<!-- coverage -->
436 of the 516 functions outside tests have a definition that cites them.

* `cmd/sadl/export.go` (1 of 2 functions).
  Not modelled: `SetupCommandLineArgs`.
* `cmd/sadl/import.go` (4 of 4 functions).
* `cmd/sadl/main.go` (2 of 4 functions).
  Not modelled: `String`, `Set`.
* `cmd/sadl/serve.go` (2 of 3 functions).
  Not modelled: `swaggerUrl`.
* `data.go` (18 of 24 functions).
  Not modelled: `AsData`, `NewData`, `MarshalJSON`, `DataToFile`, `DataFromFile`, `Get`.
* `decimal.go` (8 of 10 functions).
  Not modelled: `AsInt32`, `AsBigFloat`.
* `generator.go` (11 of 12 functions).
  Not modelled: `Uncapitalize`.
* `golang/export_golang.go` (8 of 14 functions).
  Not modelled: `NeedsDecimalType`, `EmitJsonUtil`, `Pretty`, `createGoFile`, `requiredPrimitiveTypeName`, `uncapitalize`.
* `golang/golang_client.go` (5 of 5 functions).
* `golang/golang_model.go` (26 of 31 functions).
  Not modelled: `RequestTypeName`, `ResponseTypeName`, `EmitArrayType`, `EmitMapType`, `EmitUnitValueType`.
* `golang/golang_server.go` (24 of 24 functions).
* `graphql/export_graphql.go` (8 of 11 functions).
  Not modelled: `Begin`, `Emit`, `End`.
* `graphql/import_graphql.go` (10 of 10 functions).
* `httptrace/export_http_examples.go` (5 of 5 functions).
* `java/export_java.go` (21 of 23 functions).
  Not modelled: `CreateJavaFileFromTemplate`, `reservedKeyword`.
* `java/java_client.go` (2 of 3 functions).
  Not modelled: `CreateClientConfig`.
* `java/java_model.go` (3 of 3 functions).
* `java/java_pom.go` (1 of 1 functions).
* `java/java_server.go` (9 of 12 functions).
  Not modelled: `firstTag`, `responsePojoName`, `jsonWrapper`.
* `java/java_timestamp.go` (0 of 2 functions).
  Not modelled.
* `java/java_util.go` (0 of 1 functions).
  Not modelled.
* `misc.go` (12 of 18 functions).
  Not modelled: `IsSymbol`, `IsWhitespace`, `Kind`, `Debug`, `str`, `BaseFileName`.
* `model.go` (22 of 23 functions).
  Not modelled: `fail`.
* `openapi/export_openapi.go` (12 of 14 functions).
  Not modelled: `NewGenerator`, `ExportToOAS2`.
* `openapi/import_openapi.go` (11 of 20 functions).
  Not modelled: `DetermineVersion`, `xParse`, `containsString`, `capitalize`, `uncapitalize`, `guessOperationName`, `findTypeDef`, `guessDefaultResponseCode`, `responseTypeName`.
* `openapi/import_swagger.go` (11 of 16 functions).
  Not modelled: `LoadSwagger`, `toV3ExternalDocs`, `toV3Info`, `toV3Contact`, `toV3License`.
* `openapi/model.go` (4 of 9 functions).
  Not modelled: `OasError`, `missingFieldError`, `Load`, `UnmarshalJSON`, `MarshalJSON`.
* `parser.go` (108 of 114 functions).
  Not modelled: `ParseSadlFile`, `ParseSadlString`, `Source`, `parseBytesOptions`, `registerExtension`, `expectedDirectiveError`.
* `smithy/export_smithy.go` (29 of 31 functions).
  Not modelled: `typeReference`, `capitalize`.
* `smithy/import_smithy.go` (23 of 28 functions).
  Not modelled: `Import`, `addShape`, `NewModel`, `ensureLocalNamespace`, `importResourceShape`.
* `struct_helpers.go` (19 of 19 functions).
* `timestamp.go` (4 of 4 functions).
* `unitvalue.go` (4 of 5 functions).
  Not modelled: `NewUnitValue`.
* `unparser.go` (7 of 9 functions).
  Not modelled: `NewGenerator`, `CreateSadlSource`.
* `uuid.go` (2 of 2 functions).
<!-- /coverage -->
