import Verif.Model.Equiv
/-
smithy/export_smithy.go:40-83: the exported function `AllTypeRefs`, which collects the built-in types a
model makes use of.
-/
namespace Sadl

/-- A call that is made in a loop over `xs`; the map is the one that Go updates in place. -/
def noteAll {α : Type} (f : GoMap Bool → α → Res (GoMap Bool)) : List α → GoMap Bool → Res (GoMap Bool)
  | [], refs => some (.ok refs)
  | x :: xs, refs =>
    match f refs x with
    | some (.ok refs) => noteAll f xs refs
    | r => r

section
variable (m : Model) (recur : GoMap Bool → TypeSpec → Res (GoMap Bool))

/-- smithy/export_smithy.go:55-56 (and 58-61, 71-74, 77-78): `td := model.FindType(name)` and the call with
`&td.TypeSpec`, which is a nil dereference if there is no such type. -/
def noteName (refs : GoMap Bool) (name : String) : Res (GoMap Bool) :=
  match m.findType name with
  | some td => recur refs td.ts
  | none => some (.panic "nil TypeDef")

/-- smithy/export_smithy.go:47-83 `noteTypeRefs`, one unfolding. -/
def noteStep (refs : GoMap Bool) (ts : TypeSpec) : Res (GoMap Bool) :=
  match ts.type with
  | "Bool" | "Int8" | "Int16" | "Int32" | "Int64" | "Float32" | "Float64" | "Decimal" | "Bytes" | "String"
  | "Timestamp" | "UUID" => some (.ok (mset refs ts.type true))
  | "Enum" => some (.ok refs)
  | "Array" => noteName m recur refs ts.items
  | "Map" => noteAll (noteName m recur) [ts.items, ts.keys] refs
  | "Struct" =>
    if ts.fields.length = 0 then some (.ok (mset refs "Struct" true))
    else noteAll (fun refs (fd : StructFieldDef) => recur refs fd.ts) ts.fields refs
  | "UnitValue" => noteAll (noteName m recur) [ts.unit, ts.value] refs
  | "Union" => noteAll (fun refs (v : UnionVariantDef) => noteName m recur refs v.ts.type) ts.variants refs
  | _ => some (.ok refs)
end

/-- smithy/export_smithy.go:47-83 `noteTypeRefs`, at most `fuel` nested calls. -/
def noteTypeRefs (m : Model) : Nat → GoMap Bool → TypeSpec → Res (GoMap Bool)
  | 0, _, _ => none
  | fuel + 1, refs, ts => noteStep m (noteTypeRefs m fuel) refs ts

/-- smithy/export_smithy.go:40-46 `AllTypeRefs`. -/
def allTypeRefs (m : Model) (fuel : Nat) : Res (GoMap Bool) :=
  noteAll (fun refs (td : TypeDef) => noteTypeRefs m fuel refs td.ts) m.schema.types []

end Sadl
