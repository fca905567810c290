import Verif.Model.GoExport
/-
Specification: the files of a generated Go package.
-/
namespace Sadl.Spec

/-- The files that the settings ask for, by the end of their name. -/
inductive GoWanted (config : Value) : String → Prop
  | model : configBool config "model" true = true → GoWanted config "_model.go"
  | server : configBool config "server" false = true → GoWanted config "_server.go"
  | client : configBool config "client" false = true → GoWanted config "_client.go"

/-- The text generated for a file. -/
inductive GoTextOf (lib : GoLib) (m : Model) (conf : GoConf) : String → String → Prop
  | model {f} : goModel m conf = .ok f → GoTextOf lib m conf "_model.go" f.text
  | server {s} : goServer m conf lib = .ok s → GoTextOf lib m conf "_server.go" s.text
  | client {c} : goClient m conf = .ok c → GoTextOf lib m conf "_client.go" c.text

/-- A file that may not be written: overwriting is not asked for and the file exists, or it cannot be told. -/
def Protected (os : OS) (config : Value) (files : GoMap String) (path : String) : Prop :=
  asBool (dataGet config ["force-overwrite"]) = false ∧ (os.statFails path = true ∨ ∃ c, mget files path = some c)

/-- The name of a file or directory. -/
def PlainName (n : List Char) : Prop := n ≠ [] ∧ n ≠ ['.'] ∧ n ≠ ['.', '.'] ∧ '/' ∉ n

/-- A file system without failures. -/
structure Works (os : OS) : Prop where
  stat : ∀ p, os.statFails p = false
  create : ∀ p, os.createFails p = false
  written : ∀ p c, os.written p c = c
  noError : ∀ p c, os.writeErr p c = none

end Sadl.Spec
