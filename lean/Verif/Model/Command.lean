import Verif.Model.Data
import Verif.Model.Text
/-
The command `sadl` (cmd/sadl/main.go, cmd/sadl/export.go): which settings a generator gets
from the configuration file and the command line, and how generators read them
(generator.go).  Reading the command line (package flag) and the file system are not
modelled: the flags and the contents of the configuration file are arguments.
-/
namespace Sadl

/-- The flags that matter for generating (cmd/sadl/main.go:72-83). -/
structure Flags where
  gen : String := "sadl"          -- -g
  force : Bool := false           -- -f
  options : List String := []     -- -x, in order

/-- cmd/sadl/main.go:160-169: one option `-x`.  `strings.Split` gives at least one part. -/
def optionOf (kv : String) : String × Value :=
  match splitAll '=' kv.toList with
  | k :: v :: _ => (String.ofList k, .str (String.ofList v))
  | _ => (kv, .bool true)

/-- cmd/sadl/main.go:152-155: the section of the configuration that is used. -/
def sectionName (gen : String) : String := if gen = "java-server" then "java" else gen

/-- cmd/sadl/main.go:156-170: the settings passed to `ExportFiles`.  `conf` is the contents of
the configuration file, `null` if there is none or it cannot be read (`GetData` of a nil
pointer is like `GetData` of no data). -/
def generatorConf (conf : Value) (f : Flags) : Value :=
  let genConf := dataGet conf [sectionName f.gen]
  let genConf := dataPut genConf "force-overwrite" (.bool f.force)
  f.options.foldl (fun d kv => dataPut d (optionOf kv).1 (optionOf kv).2) genConf

/-- cmd/sadl/main.go:115-132: the settings passed to the importers. -/
structure ImportFlags where
  ns : String := ""
  service : String := ""
  name : String := ""
  formatType : String := ""
  base : String := ""

/-- A setting that is not empty. -/
def putNonEmpty (d : Value) (k v : String) : Value := if v ≠ "" then dataPut d k (.str v) else d

/-- cmd/sadl/main.go:115-132. -/
def importConf (f : ImportFlags) : Value :=
  putNonEmpty (putNonEmpty (putNonEmpty (putNonEmpty (putNonEmpty .null "namespace" f.ns) "service" f.service)
    "name" f.name) "type" f.formatType) "base" f.base

/-- What `ExportFiles` runs. -/
inductive Exporter where
  | json | sadl | smithy (ast : Bool) | openapi | swaggerUi | graphql | java | go | httpTrace
  deriving Repr, DecidableEq

/-- cmd/sadl/export.go:26-65 `ExportFiles`: the exporter that runs and its settings; `none` is
the error "Unsupported generator". -/
def exportFiles (generator : String) (conf : Value) : Option (Exporter × Value) :=
  match generator with
  | "json" | "sadl-ast" => some (.json, conf)
  | "sadl" => some (.sadl, conf)
  | "smithy" => some (.smithy false, conf)
  | "smithy-ast" => some (.smithy true, conf)
  | "openapi" => some (.openapi, conf)
  | "swagger-ui" => some (.swaggerUi, conf)
  | "graphql" => some (.graphql, conf)
  | "java" | "java-model" => some (.java, conf)
  | "java-server" => some (.java, dataPut conf "server" (.bool true))
  | "java-client" => some (.java, dataPut conf "client" (.bool true))
  | "go" | "go-model" => some (.go, conf)
  | "go-server" => some (.go, dataPut conf "server" (.bool true))
  | "go-client" => some (.go, dataPut conf "client" (.bool true))
  | "http-trace" => some (.httpTrace, conf)
  | _ => none

/-- cmd/sadl/main.go:140-174: from the configuration file and the flags to the exporter. -/
def runExport (conf : Value) (f : Flags) : Option (Exporter × Value) :=
  exportFiles f.gen (generatorConf conf f)

/-- data.go:126-128 `Data.GetString`. -/
def dataGetString (d : Value) (keys : List String) : String := asString (dataGet d keys)
/-- data.go:130-132 `Data.GetBool`. -/
def dataGetBool (d : Value) (keys : List String) : Bool := asBool (dataGet d keys)
/-- data.go:134-136 `Data.GetInt`. -/
def dataGetInt (wild : Int) (d : Value) (keys : List String) : Int := asInt wild (dataGet d keys)

/-- generator.go:21-26 `GetConfigString`. -/
def configString (config : Value) (k default : String) : String :=
  if !dataHas config [k] then default else dataGetString config [k]
/-- generator.go:28-33 `GetConfigBool`. -/
def configBool (config : Value) (k : String) (default : Bool) : Bool :=
  if !dataHas config [k] then default else dataGetBool config [k]
/-- generator.go:35-40 `GetConfigInt`. -/
def configInt (wild : Int) (config : Value) (k : String) (default : Int) : Int :=
  if !dataHas config [k] then default else dataGetInt wild config [k]

end Sadl
