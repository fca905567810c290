/-
Shared vocabulary of the model: outcomes of Go functions and Go maps.
Nothing here models a particular function of /repo.
-/
namespace Sadl

/-- Outcome of a Go function that returns `(value, error)` and may panic.
`panic` stands for a run-time panic (nil dereference, index out of range,
explicit `panic(...)`). -/
inductive Out (α : Type) where
  | ok (a : α)
  | err (msg : String)
  | panic (msg : String)
  deriving Repr, DecidableEq

namespace Out
variable {α β : Type}

/-- Sequencing: the first error or panic ends the computation. -/
def bind (x : Out α) (f : α → Out β) : Out β :=
  match x with
  | .ok a => f a
  | .err e => .err e
  | .panic e => .panic e

instance : Monad Out where
  pure := .ok
  bind := Out.bind

@[simp] theorem bind_ok (a : α) (f : α → Out β) : (Out.ok a >>= f) = f a := rfl
@[simp] theorem bind_err (e : String) (f : α → Out β) : (Out.err e >>= f) = .err e := rfl
@[simp] theorem bind_panic (e : String) (f : α → Out β) : (Out.panic e >>= f) = .panic e := rfl
@[simp] theorem pure_eq (a : α) : (pure a : Out α) = .ok a := rfl

/-- The call returned without error. -/
def isOk : Out α → Bool
  | .ok _ => true
  | _ => false

end Out

/-- A Go `map[string]α`: an association list.  The order of the list stands for
the order in which the runtime enumerates the map. -/
abbrev GoMap (α : Type) := List (String × α)

/-- `m[k]`, with `none` for an absent key. -/
def mget {α : Type} (m : GoMap α) (k : String) : Option α :=
  match m with
  | [] => none
  | (k', v) :: r => if k' = k then some v else mget r k

/-- `m[k] = v`. -/
def mset {α : Type} (m : GoMap α) (k : String) (v : α) : GoMap α :=
  match m with
  | [] => [(k, v)]
  | (k', v') :: r => if k' = k then (k', v) :: r else (k', v') :: mset r k v

/-- The association list is a map: no key occurs twice. -/
def GoMap.Distinct {α : Type} (m : GoMap α) : Prop := (m.map Prod.fst).Nodup

end Sadl
