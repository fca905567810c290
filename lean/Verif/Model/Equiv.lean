import Verif.Model.Model
/-
model.go:61-157: equivalence of types.

`Min`, `Max`, `MinSize` are pointers and Go compares the addresses.  The model's
specifications carry values only, so the comparison takes an oracle `aliased`:
`aliased a b` says that the specifications `a` and `b` share their non-nil pointers.
-/
namespace Sadl

/-- Comparison `p != q` of two pointers, negated. -/
def ptrEq {α : Type} [DecidableEq α] (shared : Bool) (a b : Option α) : Bool :=
  match a, b with
  | none, none => true
  | some x, some y => shared && decide (x = y)
  | _, _ => false

/-- Outcome of a computation that may run forever (`none`) or crash (`some (.panic _)`). -/
abbrev Res (α : Type) := Option (Out α)

/-- Go's `if !a { return false }; b`. -/
def Res.andAlso (a b : Res Bool) : Res Bool :=
  match a with
  | some (.ok true) => b
  | r => r

section
variable (m : Model) (aliased : TypeSpec → TypeSpec → Bool) (recur : TypeSpec → TypeSpec → Res Bool)

/-- model.go:61-68 `EquivalentTypesByName`: an undefined name is a nil dereference. -/
def equivNames (a b : String) : Res Bool :=
  if a = b then some (.ok true)
  else match m.findType a, m.findType b with
    | some t1, some t2 => recur t1.ts t2.ts
    | _, _ => some (.panic "nil TypeDef")

/-- model.go:70-157 `EquivalentTypes`, one unfolding.  `ts1.MaxSize != ts1.MaxSize` (sic)
is never true and is left out. -/
def equivStep (a b : TypeSpec) : Res Bool :=
  if a.type ≠ b.type then some (.ok false)
  else match a.type with
    | "String" =>
      let va := a.values.getD []
      let vb := b.values.getD []
      some (.ok (decide (a.pattern = b.pattern) && ptrEq (aliased a b) a.minSize b.minSize
        && decide (va.length = vb.length) && decide (a.reference = b.reference)
        && (decide (va.length = 0) || vb.all (fun v => va.contains v))))
    | "UUID" => some (.ok (decide (a.reference = b.reference)))
    | "Struct" => some (.ok (decide (a.fields.length = b.fields.length)))
    | "Bytes" => some (.ok (ptrEq (aliased a b) a.minSize b.minSize))
    | "UnitValue" => (equivNames m recur a.unit b.unit).andAlso (equivNames m recur a.value b.value)
    | "Array" | "Map" =>
      if ptrEq (aliased a b) a.minSize b.minSize then
        (equivNames m recur a.items b.items).andAlso (equivNames m recur a.keys b.keys)
      else some (.ok false)
    | "Int8" | "Int16" | "Int32" | "Int64" | "Float32" | "Float64" | "Decimal" =>
      some (.ok (ptrEq (aliased a b) a.min b.min && ptrEq (aliased a b) a.max b.max))
    | "Enum" =>
      some (.ok (decide (a.elements.length = b.elements.length)
        && (b.elements.map (·.symbol)).all (fun s => (a.elements.map (·.symbol)).contains s)))
    | "Union" =>
      some (.ok (decide (a.variants.length = b.variants.length)
        && (b.variants.map (·.ts.type)).all (fun s => (a.variants.map (·.ts.type)).contains s)))
    | _ => some (.ok true)
end

/-- model.go:70-157 `EquivalentTypes`, at most `fuel` nested calls. -/
def equivTypes (m : Model) (aliased : TypeSpec → TypeSpec → Bool) : Nat → TypeSpec → TypeSpec → Res Bool
  | 0, _, _ => none
  | fuel + 1, a, b => equivStep m aliased (equivTypes m aliased fuel) a b

/-- model.go:61-68 `EquivalentTypesByName`. -/
def equivTypesByName (m : Model) (aliased : TypeSpec → TypeSpec → Bool) (fuel : Nat) (a b : String) : Res Bool :=
  equivNames m (equivTypes m aliased fuel) a b

end Sadl
