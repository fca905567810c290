import Verif.Model.Import
import Verif.Model.Path
/-
The files that are imported: the directories that are searched, and the files that the Smithy importer reads.
-/
namespace Sadl
namespace Import

/-- What `filepath.Walk` finds at a path: a file (or anything else that is not a directory), a directory with its entries in the
order of their names, or something that cannot be looked at (`Lstat` fails, or the directory cannot be read). -/
inductive Tree where
  | file
  | dir (entries : List (String × Tree))
  | broken

mutual
/-- `filepath.Walk` with the function of cmd/sadl/import.go:43-52 and smithy/import_smithy.go:992-1001, which stops at the first
error: the paths that are visited, and whether there was no error. -/
def walkTree (path : String) : Tree → List String × Bool
  | .file => ([path], true)
  | .broken => ([], false)
  | .dir es => let r := walkEntries path es; (path :: r.1, r.2)
/-- The entries of a directory. -/
def walkEntries (path : String) : List (String × Tree) → List String × Bool
  | [] => ([], true)
  | (n, t) :: rest =>
    let r := walkTree (joinPath path n) t
    if r.2 then let r' := walkEntries path rest; (r.1 ++ r'.1, r'.2) else (r.1, false)
end

/-- The file system: `os.Stat` (`none`: an error, `some true`: a directory), and what `filepath.Walk` finds. -/
structure FileSystem where
  stat : String → Option Bool
  tree : String → Tree

/-- The files as `ImportFiles` sees them. -/
def World.on {M : Type} (fs : FileSystem) (valid : String → String → Bool) (run : String → List String → Out M) : World M :=
  { stat := fs.stat, walk := fun p => (walkTree p (fs.tree p)).1, valid := valid, run := run }

/-- smithy/import_smithy.go:975-978 `ImportFileExtensions`. -/
def smithyExtensions : GoMap (List String) := [(".smithy", ["smithy"]), (".json", ["smithy"])]

/-- smithy/import_smithy.go:980-1006 `expandPaths`. -/
def smithyPaths (fs : FileSystem) : List String → Out (List String)
  | [] => .ok []
  | path :: rest =>
    if (mget smithyExtensions (ext path)).isSome then (smithyPaths fs rest).bind fun r => .ok (path :: r)
    else
      match fs.stat path with
      | none => .err "stat"
      | some isDir =>
        (smithyPaths fs rest).bind fun r =>
        .ok ((if isDir then (walkTree path (fs.tree path)).1.filter (fun p => (mget smithyExtensions (ext p)).isSome) else []) ++ r)

/-- What the Smithy library offers: reading the two kinds of files, merging two models and checking one. -/
structure SmithyLib (A : Type) where
  empty : A
  load : String → Out A
  parse : String → Out A
  merge : A → A → Out A
  validate : A → Out Unit

/-- smithy/import_smithy.go:945-964: the files are read and merged, in order. -/
def mergeFiles {A : Type} (l : SmithyLib A) : A → List String → Out A
  | a, [] => .ok a
  | a, p :: ps =>
    (if ext p = ".json" then l.load p else if ext p = ".smithy" then l.parse p else .err ("parse for file type " ++ ext p ++ " not implemented")).bind
      fun b => (l.merge a b).bind fun c => mergeFiles l c ps

/-- smithy/import_smithy.go:937-973 `AssembleModel`, without tags, as `Import` (31-45) calls it. -/
def assembleModel {A : Type} (l : SmithyLib A) (fs : FileSystem) (paths : List String) : Out A :=
  (smithyPaths fs paths).bind fun ps => (mergeFiles l l.empty ps).bind fun a => (l.validate a).bind fun _ => .ok a

end Import
end Sadl
