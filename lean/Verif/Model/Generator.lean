import Verif.Model.Data
/-
generator.go: the state of a generator and of the file system it writes to.
-/
namespace Sadl

/-- What the operating system does, for every path: whether `os.Stat` fails for another
reason than absence, whether `os.Create` fails, and what `bufio.Writer.WriteString`
followed by `Flush` leaves in the file and reports.  Any behaviour is allowed. -/
structure OS where
  statFails : String → Bool
  createFails : String → Bool
  written : String → String → String
  writeErr : String → String → Option String

/-- generator.go:12-19 `Generator` and the files. `buf = none` is the nil writer. -/
structure Gen where
  config : Value
  err : Option String := none
  buf : Option String := none
  files : GoMap String := []

/-- generator.go:110-115 `FileExists`. -/
def Gen.fileExists (os : OS) (g : Gen) (path : String) : Bool :=
  os.statFails path || (mget g.files path).isSome

/-- generator.go:64-79 `WriteFile`.  Note that `gen.Err` is not consulted, and is
overwritten by the outcome of the write. -/
def Gen.writeFile (os : OS) (g : Gen) (path content : String) : Gen :=
  if asBool (dataGet g.config ["force-overwrite"]) = false ∧ g.fileExists os path = true then g
  else if os.createFails path then { g with err := some "create" }
  else { g with
    files := mset g.files path (os.written path content)
    err := os.writeErr path content }

/-- generator.go:42-46 `Emit`; writing to a memory buffer does not fail. -/
def Gen.emit (g : Gen) (s : String) : Gen :=
  match g.err, g.buf with
  | none, some b => { g with buf := some (b ++ s) }
  | _, _ => g

/-- generator.go:48-54 `Begin`. -/
def Gen.begin (g : Gen) : Gen :=
  match g.err with
  | some _ => g
  | none => { g with buf := some "" }

/-- generator.go:56-62 `End`. -/
def Gen.end (g : Gen) : String :=
  match g.err, g.buf with
  | none, some b => b
  | _, _ => ""

/-- generator.go:81-100 `EmitTemplate`; `tmpl` is the outcome of parsing and executing
the template. -/
def Gen.emitTemplate (g : Gen) (tmpl : Except String String) : Gen :=
  match g.err with
  | some _ => g
  | none => match tmpl with
    | .error e => { g with err := some e }
    | .ok s => g.emit s

/-- A step of a generator run. -/
inductive GenOp where
  | writeFile (path content : String)
  | emit (s : String)
  | begin
  | emitTemplate (t : Except String String)

/-- Performs one step (generator.go:42-100). -/
def Gen.step (os : OS) (g : Gen) : GenOp → Gen
  | .writeFile p c => g.writeFile os p c
  | .emit s => g.emit s
  | .begin => g.begin
  | .emitTemplate t => g.emitTemplate t

/-- Performs a sequence of steps. -/
def Gen.run (os : OS) (g : Gen) (ops : List GenOp) : Gen := ops.foldl (Gen.step os) g

end Sadl
