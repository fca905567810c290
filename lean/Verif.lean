import Verif.Lemmas.AcceptedHttp
import Verif.Lemmas.Basic
import Verif.Lemmas.Equiv
import Verif.Lemmas.FinalNewline
import Verif.Lemmas.FinalNewlineTop
import Verif.Lemmas.GoCheck
import Verif.Lemmas.GoClient
import Verif.Lemmas.GoClientRules
import Verif.Lemmas.GoClientRun
import Verif.Lemmas.GoCompiles
import Verif.Lemmas.GoExport
import Verif.Lemmas.GoLex
import Verif.Lemmas.GoLexNames
import Verif.Lemmas.GoLexText
import Verif.Lemmas.GoLits
import Verif.Lemmas.GoMirror
import Verif.Lemmas.GoServer
import Verif.Lemmas.GoServerRules
import Verif.Lemmas.GoServerRun
import Verif.Lemmas.Golang
import Verif.Lemmas.GrammarBasic
import Verif.Lemmas.GrammarHttp
import Verif.Lemmas.GrammarIs
import Verif.Lemmas.GrammarOps
import Verif.Lemmas.GrammarOpts
import Verif.Lemmas.GrammarSource
import Verif.Lemmas.GrammarTypeDef
import Verif.Lemmas.GrammarTypes
import Verif.Lemmas.GrammarUpto
import Verif.Lemmas.GraphQLDoc
import Verif.Lemmas.GraphQLImport
import Verif.Lemmas.GraphQLText
import Verif.Lemmas.Http
import Verif.Lemmas.ImportOrder
import Verif.Lemmas.InlineEnums
import Verif.Lemmas.JavaBody
import Verif.Lemmas.JavaClass
import Verif.Lemmas.JavaExport
import Verif.Lemmas.JavaImports
import Verif.Lemmas.JavaKnown
import Verif.Lemmas.JavaLex
import Verif.Lemmas.JavaLexClass
import Verif.Lemmas.JavaLexFile
import Verif.Lemmas.JavaLexRest
import Verif.Lemmas.JavaLexText
import Verif.Lemmas.JavaLits
import Verif.Lemmas.JavaRest
import Verif.Lemmas.JavaRun
import Verif.Lemmas.JavaType
import Verif.Lemmas.Json
import Verif.Lemmas.JsonString
import Verif.Lemmas.JsonText
import Verif.Lemmas.JsonValue
import Verif.Lemmas.NewModel
import Verif.Lemmas.OpenApi
import Verif.Lemmas.OpenApiActions
import Verif.Lemmas.OpenApiAnyDoc
import Verif.Lemmas.OpenApiBack
import Verif.Lemmas.OpenApiExamples
import Verif.Lemmas.OpenApiFits
import Verif.Lemmas.OpenApiGiven
import Verif.Lemmas.OpenApiJson
import Verif.Lemmas.OpenApiKeptDoc
import Verif.Lemmas.OpenApiMono
import Verif.Lemmas.OpenApiReady
import Verif.Lemmas.OpenApiRefs
import Verif.Lemmas.OpenApiRules
import Verif.Lemmas.OpenApiSafe
import Verif.Lemmas.OpenApiShared
import Verif.Lemmas.OpenApiShown
import Verif.Lemmas.OpenApiTerm
import Verif.Lemmas.OpenApiText
import Verif.Lemmas.OpenApiTrip
import Verif.Lemmas.OpenApiTypes
import Verif.Lemmas.OpenApiValues
import Verif.Lemmas.ParserEats
import Verif.Lemmas.ParserHttp
import Verif.Lemmas.ParserKinds
import Verif.Lemmas.ParserLoop
import Verif.Lemmas.ParserNames
import Verif.Lemmas.ParserPost
import Verif.Lemmas.ParserReal
import Verif.Lemmas.ParserRun
import Verif.Lemmas.ParserSafe
import Verif.Lemmas.ParserTerm
import Verif.Lemmas.ParserTypeNames
import Verif.Lemmas.ParserWp
import Verif.Lemmas.Path
import Verif.Lemmas.SchemaJson
import Verif.Lemmas.Serve
import Verif.Lemmas.SmithyActionBack
import Verif.Lemmas.SmithyAnnos
import Verif.Lemmas.SmithyExamples
import Verif.Lemmas.SmithyExport
import Verif.Lemmas.SmithyFailure
import Verif.Lemmas.SmithyImport
import Verif.Lemmas.SmithyLayout
import Verif.Lemmas.SmithyOnly
import Verif.Lemmas.SmithyOps
import Verif.Lemmas.SmithyRefs
import Verif.Lemmas.SmithyRoundTrip
import Verif.Lemmas.SmithySafe
import Verif.Lemmas.SmithyShapes
import Verif.Lemmas.SmithyTypeBack
import Verif.Lemmas.SmithyTypes
import Verif.Lemmas.Swagger
import Verif.Lemmas.SwaggerActions
import Verif.Lemmas.SwaggerTypes
import Verif.Lemmas.Tactics
import Verif.Lemmas.Text
import Verif.Lemmas.Trace
import Verif.Lemmas.TraceExport
import Verif.Lemmas.TraceMessage
import Verif.Lemmas.TypeRefs
import Verif.Lemmas.UnparseBlock
import Verif.Lemmas.UnparseHttp
import Verif.Lemmas.UnparseJson
import Verif.Lemmas.UnparseOp
import Verif.Lemmas.UnparseOpts
import Verif.Lemmas.UnparseReads
import Verif.Lemmas.UnparseSpec
import Verif.Lemmas.UnparseText
import Verif.Lemmas.UnparseTop
import Verif.Lemmas.UnparseType
import Verif.Lemmas.UnparseTypedef
import Verif.Lemmas.Valid
import Verif.Lemmas.ValidMain
import Verif.Lemmas.ValidPerm
import Verif.Lemmas.Validate
import Verif.Lemmas.ValidateApi
import Verif.Lemmas.ValidateMain
import Verif.Lemmas.ValidateStuck
import Verif.Lemmas.ValidateTerm
import Verif.Lemmas.Words
import Verif.Lemmas.WordsSource
import Verif.Model.Basic
import Verif.Model.Command
import Verif.Model.Data
import Verif.Model.DataAccess
import Verif.Model.Decimal
import Verif.Model.Equiv
import Verif.Model.ExampleTarget
import Verif.Model.Generator
import Verif.Model.GoClient
import Verif.Model.GoExport
import Verif.Model.GoServer
import Verif.Model.Golang
import Verif.Model.GraphQL
import Verif.Model.GraphQLDoc
import Verif.Model.Http
import Verif.Model.HttpTrace
import Verif.Model.Import
import Verif.Model.InlineEnums
import Verif.Model.Java
import Verif.Model.JavaClass
import Verif.Model.JavaClient
import Verif.Model.JavaExport
import Verif.Model.JavaGenerate
import Verif.Model.JavaPom
import Verif.Model.JavaServer
import Verif.Model.JavaText
import Verif.Model.Json
import Verif.Model.Literal
import Verif.Model.Misc
import Verif.Model.Model
import Verif.Model.OpenApi
import Verif.Model.OpenApiFile
import Verif.Model.OpenApiImport
import Verif.Model.OpenApiJson
import Verif.Model.OpenApiShared
import Verif.Model.Parser
import Verif.Model.ParserValidate
import Verif.Model.Path
import Verif.Model.Schema
import Verif.Model.SchemaJson
import Verif.Model.Serve
import Verif.Model.Smithy
import Verif.Model.SmithyExport
import Verif.Model.SmithyImport
import Verif.Model.Swagger
import Verif.Model.Text
import Verif.Model.Timestamp
import Verif.Model.Token
import Verif.Model.TypeRefs
import Verif.Model.UnitValue
import Verif.Model.Unparser
import Verif.Model.Uuid
import Verif.Model.Validate
import Verif.Model.Walk
import Verif.Props.Accepted
import Verif.Props.Command
import Verif.Props.Comments
import Verif.Props.DataAccess
import Verif.Props.Equivalence
import Verif.Props.ExampleTarget
import Verif.Props.FinalNewline
import Verif.Props.GoClient
import Verif.Props.GoExport
import Verif.Props.GoLex
import Verif.Props.GoServer
import Verif.Props.GoWire
import Verif.Props.Golang
import Verif.Props.Grammar
import Verif.Props.GraphQL
import Verif.Props.GraphQLDoc
import Verif.Props.Helpers
import Verif.Props.HttpPaths
import Verif.Props.HttpTrace
import Verif.Props.Import
import Verif.Props.ImportOrder
import Verif.Props.Includes
import Verif.Props.InlineEnums
import Verif.Props.Java
import Verif.Props.JavaClass
import Verif.Props.JavaExport
import Verif.Props.JavaImports
import Verif.Props.JavaLex
import Verif.Props.JavaRest
import Verif.Props.JavaWire
import Verif.Props.Json
import Verif.Props.Literals
import Verif.Props.MergeComments
import Verif.Props.OpenApi
import Verif.Props.OpenApiActions
import Verif.Props.OpenApiExamples
import Verif.Props.OpenApiExamplesBack
import Verif.Props.OpenApiFile
import Verif.Props.OpenApiGiven
import Verif.Props.OpenApiHead
import Verif.Props.OpenApiJson
import Verif.Props.OpenApiRules
import Verif.Props.OpenApiSafe
import Verif.Props.OpenApiShared
import Verif.Props.OpenApiText
import Verif.Props.OpenApiTypes
import Verif.Props.OpenApiValues
import Verif.Props.Options
import Verif.Props.Parsing
import Verif.Props.SchemaJson
import Verif.Props.Serve
import Verif.Props.Smithy
import Verif.Props.SmithyExamples
import Verif.Props.SmithyExport
import Verif.Props.SmithyOnly
import Verif.Props.SmithyOps
import Verif.Props.SmithySafe
import Verif.Props.SmithyShapes
import Verif.Props.SmithyShown
import Verif.Props.SmithyTypes
import Verif.Props.Swagger
import Verif.Props.SwaggerExamples
import Verif.Props.Timestamps
import Verif.Props.TypeRefs
import Verif.Props.UnitValues
import Verif.Props.Unparser
import Verif.Props.ValidateStuck
import Verif.Props.Validation
import Verif.Props.Walk
import Verif.Props.Words
import Verif.Spec.Command
import Verif.Spec.Conforms
import Verif.Spec.ExampleTarget
import Verif.Spec.GoClient
import Verif.Spec.GoExport
import Verif.Spec.GoLex
import Verif.Spec.GoServer
import Verif.Spec.GoWire
import Verif.Spec.Golang
import Verif.Spec.Grammar
import Verif.Spec.GraphQL
import Verif.Spec.ImportOrder
import Verif.Spec.Java
import Verif.Spec.JavaExport
import Verif.Spec.JavaImports
import Verif.Spec.JavaLex
import Verif.Spec.JavaRest
import Verif.Spec.JavaWire
import Verif.Spec.Json
import Verif.Spec.Literals
import Verif.Spec.OpenApi
import Verif.Spec.OpenApiActions
import Verif.Spec.OpenApiExamples
import Verif.Spec.OpenApiFile
import Verif.Spec.OpenApiGiven
import Verif.Spec.OpenApiHead
import Verif.Spec.OpenApiJson
import Verif.Spec.OpenApiRules
import Verif.Spec.OpenApiSafe
import Verif.Spec.OpenApiText
import Verif.Spec.OpenApiTypes
import Verif.Spec.OpenApiValues
import Verif.Spec.Options
import Verif.Spec.Path
import Verif.Spec.Paths
import Verif.Spec.Printable
import Verif.Spec.SchemaJson
import Verif.Spec.Serve
import Verif.Spec.Smithy
import Verif.Spec.SmithyAnnos
import Verif.Spec.SmithyExamples
import Verif.Spec.SmithyKept
import Verif.Spec.SmithyOps
import Verif.Spec.SmithySafe
import Verif.Spec.SmithyShapes
import Verif.Spec.SmithyShown
import Verif.Spec.Swagger
import Verif.Spec.Tokens
import Verif.Spec.Trace
import Verif.Spec.TypeRefs
import Verif.Spec.Valid
import Verif.Spec.Walk
import Verif.Spec.Words
