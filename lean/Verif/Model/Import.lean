import Verif.Model.Text
import Verif.Model.Basic
/-
Choosing the importer for a list of files: cmd/sadl/import.go.
-/
namespace Sadl
namespace Import

/-- cmd/sadl/import.go:23-29 `ImportFileExtensions`. -/
def importFileExtensions : GoMap (List String) :=
  [(".sadl", ["sadl"]),
   (".smithy", ["smithy"]),
   (".graphql", ["graphql"]),
   (".json", ["sadl", "smithy", "openapi", "swagger"]),
   (".yaml", ["openapi"])]

/-- `filepath.Ext`, scanning backwards; the argument is reversed. -/
def extRev : List Char → List Char → List Char
  | [], _ => []
  | c :: r, acc => if c = '/' then [] else if c = '.' then c :: acc else extRev r (c :: acc)

/-- `filepath.Ext`: the suffix beginning at the final dot of the last path element. -/
def ext (path : String) : String := String.ofList (extRev path.toList.reverse [])

/-- The part of the world `ImportFiles` looks at.  `stat` is what `os.Stat` says of a path
(`none`: an error, `some true`: a directory); `walk` lists the paths that `filepath.Walk`
visits, up to an error, which is ignored (cmd/sadl/import.go:43-52); `valid t path` is the
`IsValidFile` of the format `t` applied to the file (parser.go:37-46,
smithy/import_smithy.go:20-29, graphql/import_graphql.go:14-19,
openapi/import_openapi.go:18-21, openapi/import_swagger.go:14-17); `run` is the importer of
a format (cmd/sadl/import.go:118-140). -/
structure World (M : Type) where
  stat : String → Option Bool
  walk : String → List String
  valid : String → String → Bool
  run : String → List String → Out M

variable {M : Type} (w : World M)

/-- cmd/sadl/import.go:31-57 `expandPaths`. -/
def expandPaths : List String → Out (List String)
  | [] => .ok []
  | path :: rest =>
    if (mget importFileExtensions (ext path)).isSome then do
      let r ← expandPaths rest
      pure (path :: r)
    else
      match w.stat path with
      | none => .err "stat"
      | some isDir => do
        let r ← expandPaths rest
        let here := if isDir then
          (w.walk path).filter (fun p => (mget importFileExtensions (ext p)).isSome) else []
        pure (here ++ r)

/-- cmd/sadl/import.go:62-85: the loop of `ValidImportFileType`. -/
def firstValid (path : String) : List String → String
  | [] => ""
  | t :: r => if w.valid t path then t else firstValid path r

/-- cmd/sadl/import.go:59-90 `ValidImportFileType`. -/
def validImportFileType (path : String) : Out String :=
  match mget importFileExtensions (ext path) with
  | some ftypes => .ok (firstValid w path ftypes)
  | none => .panic "unknown file extension"

/-- cmd/sadl/import.go:99-111: the loop of `ImportFiles`, with the chosen type and the
paths to import so far. -/
def chooseLoop (chosen : String) (paths : List String) : List String → Out (String × List String)
  | [] => .ok (chosen, paths)
  | p :: rest =>
    match validImportFileType w p with
    | .ok t =>
      if t ≠ "" then
        if chosen = "" then chooseLoop t (paths ++ [p]) rest
        else if t ≠ chosen then .err "Multiple file types in input file list"
        else chooseLoop chosen (paths ++ [p]) rest
      else chooseLoop chosen paths rest
    | .err e => .err e
    | .panic e => .panic e

/-- cmd/sadl/import.go:118-124: the check of `importFiles` for the format "sadl". -/
def importFiles (paths : List String) (t : String) : Out M :=
  if t = "sadl" ∧ paths.length ≠ 1 then .err "SADL doesn't support merging models"
  else w.run t paths

/-- cmd/sadl/import.go:92-116 `ImportFiles`. -/
def importAll (paths : List String) : Out M := do
  let flat ← expandPaths w paths
  let (chosen, ps) ← chooseLoop w "" [] flat
  if chosen = "" then .err "Cannot determine file type for input file(s)"
  else importFiles w ps chosen

end Import
end Sadl
