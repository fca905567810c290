import Verif.Model.Command
import Verif.Model.Generator
import Verif.Model.GoClient
import Verif.Model.Path
/-
golang/export_golang.go: the command that generates Go files, with the file system it writes to.
-/
namespace Sadl

/-- golang/export_golang.go:59-73: the package of the generated files, as it is given. -/
def goPackage (m : Model) (config : Value) : String :=
  let pkg := configString config "package" ""
  if pkg = "" then (if m.schema.namespace = "" then "main" else m.schema.namespace) else pkg

/-- golang/export_golang.go:67-74: the name of the package and its path below the output directory. -/
def goPackagePath (pkg : String) : String × String :=
  if '.' ∈ pkg.toList then
    let lst := splitAll '.' pkg.toList
    (String.ofList (lst.getLastD []), String.ofList (joinWith '/' lst))
  else (pkg, pkg)

/-- golang/export_golang.go:50-83 `NewGenerator`: the settings that the text of the files depends on. -/
def goConfOf (m : Model) (config : Value) : GoConf :=
  { name := capitalize (configString config "name" m.schema.name)
    pkg := (goPackagePath (goPackage m config)).1
    runtime := configBool config "runtime" false }

/-- golang/export_golang.go:75 `NewGenerator`: the directory of the generated files. -/
def goDir (m : Model) (outdir : String) (config : Value) : String :=
  joinPath outdir (goPackagePath (goPackage m config)).2

/-- The result of running a generator: whether it reports an error or crashes, and the files afterwards. -/
structure Exported where
  outcome : Out Unit
  files : GoMap String

/-- golang/golang_model.go:10-25 `CreateModel`, golang/golang_server.go:12-23 `CreateServer`, golang/golang_client.go:13-22
`CreateClient`, in this order: a part is the end of the name of a file and the outcome of writing its text in memory.  Nothing is
done after an error; otherwise `WriteGoFile` (golang/export_golang.go:85-99) writes the file.  A crash leaves the files as
they are then. -/
def exportParts (os : OS) (file : String → String) : List (String × Out String) → Gen → Exported
  | [], g =>
    match g.err with
    | some e => ⟨.err e, g.files⟩
    | none => ⟨.ok (), g.files⟩
  | (suffix, text) :: rest, g =>
    match g.err with
    | some _ => exportParts os file rest g
    | none =>
      match text with
      | .panic e => ⟨.panic e, g.files⟩
      | .err e => exportParts os file rest { g with err := some e }
      | .ok t => exportParts os file rest (g.writeFile os (file suffix) t)

/-- golang/export_golang.go:15-29 `Export`: the parts that are asked for, in order. -/
def goParts (lib : GoLib) (m : Model) (config : Value) : List (String × Out String) :=
  let conf := goConfOf m config
  (if configBool config "model" true then [("_model.go", (goModel m conf).bind fun f => .ok f.text)] else []) ++
  (if configBool config "server" false then [("_server.go", (goServer m conf lib).bind fun s => .ok s.text)] else []) ++
  (if configBool config "client" false then [("_client.go", (goClient m conf).bind fun c => .ok c.text)] else [])

/-- golang/golang_model.go:23, golang/golang_server.go:19, golang/golang_client.go:20, with golang/export_golang.go:96 `WriteGoFile`:
the path of a file. -/
def goFilePath (m : Model) (outdir : String) (config : Value) (suffix : String) : String :=
  joinPath (goDir m outdir config) (uncapitalize (goConfOf m config).name ++ suffix)

/-- golang/export_golang.go:15-29 `Export` and 50-83 `NewGenerator`.  `mkdir` is what `os.MkdirAll` reports for a directory;
`files` are the files before. -/
def goExport (os : OS) (mkdir : String → Option String) (lib : GoLib) (m : Model) (outdir : String) (config : Value)
    (files : GoMap String) : Exported :=
  let dir := goDir m outdir config
  exportParts os (goFilePath m outdir config) (goParts lib m config)
    { config := config, err := if dir ≠ "" then mkdir dir else none, files := files }

end Sadl
