import Verif.Model.Walk
/-
The files that an import of files and directories is to read.
-/
namespace Sadl.Spec
open Sadl Sadl.Import

/-- There is the file `q` at or below the path `p`, where there is the tree `t`. -/
inductive FileBelow : String → Tree → String → Prop
  | here {p} : FileBelow p .file p
  | entry {p es n t q} : (n, t) ∈ es → FileBelow (joinPath p n) t q → FileBelow p (.dir es) q

/-- There is the directory `q` at or below the path `p`, where there is the tree `t`. -/
inductive DirBelow : String → Tree → String → Prop
  | here {p es} : DirBelow p (.dir es) p
  | entry {p es n t q} : (n, t) ∈ es → DirBelow (joinPath p n) t q → DirBelow p (.dir es) q

/-- Everything in the tree can be read. -/
inductive NoErrors : Tree → Prop
  | file : NoErrors .file
  | dir {es} : (∀ e ∈ es, NoErrors e.2) → NoErrors (.dir es)

/-- The extensions of the formats that can be imported. -/
def KnownExt (p : String) : Prop := ext p ∈ [".sadl", ".smithy", ".graphql", ".json", ".yaml"]

/-- The path `path`, which was given, leads to the file `q`: it is the file, or a directory above it. -/
inductive LeadsTo (fs : FileSystem) : String → String → Prop
  | itself {path} : KnownExt path → LeadsTo fs path path
  | below {path q} : ¬ KnownExt path → fs.stat path = some true → FileBelow path (fs.tree path) q → KnownExt q → LeadsTo fs path q

/-- The given directories can be read completely, and no directory below them has a name that looks like a file to import. -/
structure Searchable (fs : FileSystem) (paths : List String) : Prop where
  whole : ∀ p ∈ paths, ¬ KnownExt p → fs.stat p = some true → NoErrors (fs.tree p)
  names : ∀ p ∈ paths, ¬ KnownExt p → fs.stat p = some true → ∀ q, DirBelow p (fs.tree p) q → ¬ KnownExt q

/-- The extensions of Smithy files. -/
def SmithyExt (p : String) : Prop := ext p = ".smithy" ∨ ext p = ".json"

/-- The path `path`, which was given to the Smithy importer, leads to the file `q`. -/
inductive SmithyLeadsTo (fs : FileSystem) : String → String → Prop
  | itself {path} : SmithyExt path → SmithyLeadsTo fs path path
  | below {path q} : ¬ SmithyExt path → fs.stat path = some true → FileBelow path (fs.tree path) q → SmithyExt q → SmithyLeadsTo fs path q

/-- The given directories can be read completely, and no directory below them has a name that looks like a Smithy file. -/
structure SmithySearchable (fs : FileSystem) (paths : List String) : Prop where
  whole : ∀ p ∈ paths, ¬ SmithyExt p → fs.stat p = some true → NoErrors (fs.tree p)
  names : ∀ p ∈ paths, ¬ SmithyExt p → fs.stat p = some true → ∀ q, DirBelow p (fs.tree p) q → ¬ SmithyExt q

end Sadl.Spec
