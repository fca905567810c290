import Verif.Model.OpenApiImport
/-
openapi/import_openapi.go: the variable of the package that conversions collect their examples in.
-/
namespace Sadl.Shared

/-- openapi/import_openapi.go:246: the examples of a document in the order in which they are appended: those of its types, and then those of
its operations.  There are none after an error or a crash. -/
def docExamples (d : ODoc) : List ExampleDef :=
  match (importTypes d.schemas d.schemas).bind fun a => (importPaths d.paths).bind fun b => .ok (a.2 ++ b.2) with
  | .ok l => l
  | _ => []

/-- How far a call of `ToSadl` (openapi/import_openapi.go:126-215) has got, as far as the variable matters: it has not begun; it has reset the
variable and has examples left to append; it has read the variable and is about to write it with one more; it has read the variable at the end;
it has returned early. -/
inductive Phase (α : Type) where
  | start (todo : List α)
  | running (todo : List α)
  | appending (x : α) (todo : List α) (read : List α)
  | done (result : List α)
  | failed

/-- The variable `examples` (openapi/import_openapi.go:122), and the calls, of which each has a number.  A slice is taken to be a value: that
two slices can share an array is not modelled. -/
structure State (α : Type) where
  examples : List α := []
  calls : Nat → Phase α

def State.set {α : Type} (s : State α) (i : Nat) (p : Phase α) : State α :=
  { s with calls := fun j => if j = i then p else s.calls j }

/-- One step of call `i`: lines 128, 246 (the variable is read, and then written) and 212.  With `fail`, a call that is running returns an error
or panics. -/
def State.step {α : Type} (s : State α) (i : Nat) (fail : Bool) : State α :=
  match s.calls i with
  | .start todo => { s.set i (.running todo) with examples := [] }
  | .running todo =>
    if fail then s.set i .failed
    else
      match todo with
      | [] => s.set i (.done s.examples)
      | x :: todo => s.set i (.appending x todo s.examples)
  | .appending x todo read => { s.set i (.running todo) with examples := read ++ [x] }
  | .done _ => s
  | .failed => s

/-- A schedule: which call makes a step, and whether it fails. -/
def State.run {α : Type} (s : State α) (schedule : List (Nat × Bool)) : State α :=
  schedule.foldl (fun s x => s.step x.1 x.2) s

end Sadl.Shared
