import Verif.Model.Equiv
import Verif.Model.Misc
/-
model.go:598-634 `ConvertInlineEnums`.
The Go code changes the model in place; the model function returns the changed model
together with the error, if any.
-/
namespace Sadl

/-- `strings.HasPrefix`. -/
def hasPrefix (s pre : String) : Bool := pre.toList.isPrefixOf s.toList

/-- model.go:606-609: the name of the type made from field `field` of struct `owner`. -/
def enumTypeName (owner field : String) : String :=
  let t := capitalize field
  if hasPrefix t owner then t else owner ++ t

/-- model.go:614-620: is the name free, or taken by an equivalent type?  Both sides have
type `Enum` for a positive answer, so one unfolding of the equivalence decides.  The
pointers of an Enum specification are not compared. -/
def enumNameOk (m : Model) (tname : String) (ts : TypeSpec) : Bool :=
  match m.findType tname with
  | none => true
  | some prev => match equivTypes m (fun _ _ => false) 1 prev.ts ts with
    | some (.ok b) => b
    | _ => false

/-- model.go:604-626: the loop over the fields of one struct: the fields as they are
afterwards, the types to be added, and whether an error was returned. -/
def convertFields (m : Model) (owner : String) :
    List StructFieldDef → List StructFieldDef × List TypeDef × Bool
  | [] => ([], [], false)
  | f :: rest =>
    if f.ts.type = "Enum" then
      let tname := enumTypeName owner f.name
      if enumNameOk m tname f.ts then
        let r := convertFields m owner rest
        ({ f with ts := { type := tname } } :: r.1, { name := tname, ts := f.ts } :: r.2.1, r.2.2)
      else (f :: rest, [], true)
    else
      let r := convertFields m owner rest
      (f :: r.1, r.2.1, r.2.2)

/-- model.go:601-628: one type definition. -/
def convertType (m : Model) (td : TypeDef) : TypeDef × List TypeDef × Bool :=
  if td.ts.type = "Struct" then
    let r := convertFields m td.name td.ts.fields
    ({ td with ts := { td.ts with fields := r.1 } }, r.2.1, r.2.2)
  else (td, [], false)

/-- model.go:601-628: the loop over the types. -/
def convertTypes (m : Model) : List TypeDef → List TypeDef × List TypeDef × Bool
  | [] => ([], [], false)
  | td :: rest =>
    let r := convertType m td
    if r.2.2 then (r.1 :: rest, r.2.1, true)
    else
      let q := convertTypes m rest
      (q.1 |> (r.1 :: ·), r.2.1 ++ q.2.1, q.2.2)

/-- The index and `Types` share the definitions: the entry of the index after the fields of
the definitions `before` have been changed in place to give `after`. -/
def sharedEntry (before after : List TypeDef) (kv : String × TypeDef) : String × TypeDef :=
  match (before.zip after).find? (fun p => p.1.name == kv.1) with
  | some p => (kv.1, p.2)
  | none => kv

/-- model.go:598-634 `ConvertInlineEnums`: the model afterwards, and whether an error was
returned.  The index shares its entries with `Types`, so it sees the changed structs. -/
def convertInlineEnums (m : Model) : Model × Bool :=
  let r := convertTypes m m.schema.types
  let idx := m.typeIndex.map (sharedEntry m.schema.types r.1)
  if r.2.2 then
    ({ m with schema := { m.schema with types := r.1 }, typeIndex := idx }, true)
  else
    ({ m with
        schema := { m.schema with types := r.1 ++ r.2.1 }
        typeIndex := r.2.1.foldl (fun i td => mset i td.name td) idx }, false)

end Sadl
