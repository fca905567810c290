import Verif.Model.JavaClient
import Verif.Model.JavaPom
/-
java/export_java.go: the command that generates Java files, with its settings and the file system it writes to.
-/
namespace Sadl

/-- What the generator of Java asks of its surroundings: two environment variables, how numbers are written, and the order of maps. -/
structure JavaEnv where
  domain : String := ""
  hostname : String := ""
  decText : BigFloat → String := fun _ => ""
  order : List String → List String := id

/-- java/export_java.go:72-86 `reverseStrings`, `defaultPackage`: the parts of a dotted name, in reverse. -/
def reverseDots (s : String) : String := String.ofList (joinWith '.' (splitAll '.' s.toList).reverse)

/-- java/export_java.go:61-70 `defaultDomain`. -/
def defaultDomain (env : JavaEnv) : String :=
  if env.domain ≠ "" then env.domain else if env.hostname ≠ "" then env.hostname else "example"

/-- java/export_java.go:100-108: the domain.  The setting is looked up as `domain.-`, so that a setting `domain` has no effect. -/
def javaDomain (m : Model) (env : JavaEnv) (config : Value) : String :=
  let d := dataGetString config ["domain", "-"]
  if d ≠ "" then d else if m.schema.namespace ≠ "" then reverseDots m.schema.namespace else defaultDomain env

/-- java/export_java.go:112-115: the package. -/
def javaPkg (m : Model) (env : JavaEnv) (config : Value) : String :=
  let p := configString config "package" ""
  if p ≠ "" then p else reverseDots (javaDomain m env config)

/-- java/export_java.go:97-146 `NewGenerator`: the settings. -/
def javaConfOf (m : Model) (env : JavaEnv) (config : Value) : JavaConf :=
  let pkg := javaPkg m env config
  { name := capitalize (configString config "name" m.schema.name)
    domain := javaDomain m env config
    pkg := pkg
    modelPackage := if configBool config "model" true then configString config "model-package" (pkg ++ ".model") else ""
    serverPackage := if configBool config "server" false then configString config "server-package" (pkg ++ ".server") else ""
    clientPackage := if configBool config "client" false then configString config "client-package" (pkg ++ ".client") else ""
    header := configString config "header" "//\n// Generated by sadl\n//\n"
    lombok := configBool config "lombok" false
    immutable := configBool config "immutable" true
    instants := configBool config "instants" true
    pretty := configBool config "json" false
    serviceException := asBool (dataGet config ["service-exception"])
    decText := env.decText
    order := env.order }

/-- java/export_java.go:117 `NewGenerator`: the directory of the sources, below the output directory. -/
def javaSource (config : Value) : String := configString config "source" "src/main/java"

/-- java/export_java.go:128-144, 148-157 `EnsurePackageDir`: the directories that are made, in order. -/
def javaDirs (m : Model) (env : JavaEnv) (outdir : String) (config : Value) : List String :=
  let conf := javaConfOf m env config
  ([conf.pkg] ++ (if configBool config "model" true then [conf.modelPackage] else []) ++
    (if configBool config "server" false then [conf.serverPackage] else []) ++
    (if configBool config "client" false then [conf.clientPackage] else [])).map fun p =>
    joinPath (joinPath outdir (javaSource config)) (javaPackagePath p)

/-- java/export_java.go:148-157 `EnsurePackageDir`: the first error of making directories. -/
def firstError (mkdir : String → Option String) : List String → Option String
  | [] => none
  | d :: ds => match mkdir d with | some e => some e | none => firstError mkdir ds

/-- java/export_java.go:44-59 `Export`: the phases; the first one is run even after an error. -/
def javaPlan (m : Model) (conf : JavaConf) (config : Value) : List (List JavaStep) :=
  let md := if configBool config "model" true then javaModel m conf else ([[]], [])
  md.1 ++
  (if configBool config "server" false then [javaServer m conf (configBool config "example-implementation" false) md.2] else []) ++
  (if configBool config "client" false then [javaClient m conf] else []) ++
  (if configBool config "maven" false then
    [[.file (.ok { name := "pom", pkg := "", content := .pom (javaPomText conf.domain conf.name conf.lombok) })]] else [])

/-- All phases: the first one is always run. -/
def javaRunPlan (os : OS) (path text : JavaFile → String) : List (List JavaStep) → Gen → JavaRun
  | [], g => { gen := g }
  | p :: ps, g => javaPhases os path text ps (javaSteps os path text p g)

/-- java/export_java.go:44-59 `Export` and 97-146 `NewGenerator`. -/
def javaExport (os : OS) (mkdir : String → Option String) (env : JavaEnv) (m : Model) (outdir : String) (config : Value)
    (files : GoMap String) : Exported :=
  let conf := javaConfOf m env config
  let r := javaRunPlan os (JavaFile.path outdir (javaSource config)) (JavaFile.text conf) (javaPlan m conf config)
    { config := config, err := firstError mkdir (javaDirs m env outdir config), files := files }
  match r.crash with
  | some e => ⟨.panic e, r.gen.files⟩
  | none => match r.gen.err with | some e => ⟨.err e, r.gen.files⟩ | none => ⟨.ok (), r.gen.files⟩

end Sadl
