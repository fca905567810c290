import Verif.Model.Serve
/-
C104: what a request to the Swagger server is answered with.
-/
namespace Sadl.Spec
open Sadl.Serve

/-- The entry is the directory `top/dist`, or something in it, and `top` is at the root of the archive. -/
def InDist (f : Entry) (top : List Char) : Prop :=
  '/' ∉ top ∧ (f.name = top ++ "/dist".toList ∨ ∃ rest, f.name = top ++ "/dist/".toList ++ rest)

/-- `dir` is the directory `top/dist` of the archive that occurs first. -/
def DistDir (archive : List Entry) (dir : List Char) : Prop :=
  ∃ before f after top, archive = before ++ f :: after ∧ InDist f top ∧ dir = top ++ "/dist".toList ∧ ∀ g ∈ before, ∀ t, ¬ InDist g t

/-- `f` is the last entry of the archive that has this name. -/
def EntryOf (archive : List Entry) (name : List Char) (f : Entry) : Prop :=
  ∃ before after, archive = before ++ f :: after ∧ f.name = name ∧ ∀ g ∈ after, g.name ≠ name

/-- `t` is `s` with every occurrence of the text, from the left, replaced. -/
inductive Replaced (pat val : List Char) : List Char → List Char → Prop
  | nil : Replaced pat val [] []
  | hit {s t : List Char} : Replaced pat val s t → Replaced pat val (pat ++ s) (val ++ t)
  | miss {c : Char} {s t : List Char} : ¬ pat <+: (c :: s) → Replaced pat val s t → Replaced pat val (c :: s) (c :: t)

/-- Paths for the index page. -/
def IsIndex (path : List Char) : Prop := path = "/".toList ∨ path = "/index.html".toList

/-- What a request for a path is to be answered with: every path that ends with `.json` gives the document, the index page is the one of
the directory `dist`, with the name of the document in place of that of the example, and every other path is a file in that directory. -/
inductive PathAnswered (modelName : List Char) (archive : List Entry) : List Char → Answer → Prop
  | document {path : List Char} : ".json".toList <:+ path → PathAnswered modelName archive path .document
  | index {path dir data text : List Char} {f : Entry} : IsIndex path → DistDir archive dir → EntryOf archive (dir ++ "/index.html".toList) f →
      f.content = some data → Replaced "https://petstore.swagger.io/v2/swagger.json".toList (modelName ++ ".json".toList) data text →
      PathAnswered modelName archive path (.content text)
  | file {path dir data : List Char} {f : Entry} : ¬ ".json".toList <:+ path → ¬ IsIndex path → DistDir archive dir →
      EntryOf archive (dir ++ path) f → f.content = some data → PathAnswered modelName archive path (.content data)
  | missing {path : List Char} : ¬ ".json".toList <:+ path → ¬ IsIndex path → (∀ dir f, DistDir archive dir → ¬ EntryOf archive (dir ++ path) f) →
      PathAnswered modelName archive path .notFound
  | missingIndex {path : List Char} : IsIndex path → (∀ dir f, DistDir archive dir → ¬ EntryOf archive (dir ++ "/index.html".toList) f) →
      PathAnswered modelName archive path .notFound
  /-- An entry of the archive that cannot be opened. -/
  | broken {path dir : List Char} {f : Entry} : DistDir archive dir → f ∈ archive → f.content = none → PathAnswered modelName archive path .crash

end Sadl.Spec
