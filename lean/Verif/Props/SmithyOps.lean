import Verif.Lemmas.SmithyOps
import Verif.Props.SmithyShapes
/-
C118: the import of a Smithy model keeps its operations.
-/
namespace Sadl
namespace Props
open Sadl.Spec Sadl.Smithy

theorem toSadl_ops {lib : SLib} {suf : Suffixes} {version : String} {ast : Ast} {conf : SConf} {m : Model} (h : Smithy.toSadl lib suf version ast conf = .ok m) :
    ∃ found io imp, scanShapes conf.service ast.shapes ("", "") [] = .ok (found, io) ∧ importShapes lib suf ast io found.1 ast.shapes {} = .ok imp ∧
      m.schema.http = imp.http ∧ m.schema.operations = imp.operations := by
  unfold Smithy.toSadl at h
  obtain ⟨⟨found, io⟩, h1, h⟩ := Out.bind_eq_ok.1 h
  obtain ⟨imp, h2, h⟩ := Out.bind_eq_ok.1 h
  have h3 := ((newModel_ok_iff _ _).1 h).2.2.2
  subst h3
  exact ⟨found, io, imp, h1, h2, rfl, rfl⟩

/-- C118: every operation of an imported Smithy model with an HTTP binding becomes an action that says the same.
Missing: structures of which only members in the query or headers are bound, and output structures named like a shape of the prelude; see the refutations below. -/
theorem C118_actions_partial (lib : SLib) (suf : Suffixes) (version : String) (ast : Ast) (conf : SConf) (m : Model)
    (h : Smithy.toSadl lib suf version ast conf = .ok m) (name : String) (s : Shape) (hs : (name, s) ∈ ast.shapes) (ht : s.type = "operation")
    (hb : NotBound ast name) (method : String) (hm : traitMember s "smithy.api#http" "method" = some (.str method)) (hn : method ≠ "") :
    ∃ x ∈ m.schema.http, OpActionKept lib ast name s x := by
  obtain ⟨found, io, imp, h1, h2, h3, -⟩ := toSadl_ops h
  rw [h3]
  refine (importShapes_op h2 hs ?_ ht).1 method hm hn
  intro hi
  rcases scanShapes_io h1 name hi with h4 | ⟨k, op, h4, h5, h6⟩
  · cases h4
  · rcases h6 with h6 | h6
    · exact (hb k op h4 h5).1 h6
    · exact (hb k op h4 h5).2 h6

/-- C118: every operation of an imported Smithy model without an HTTP binding becomes an operation that says the same. -/
theorem C118_operations (lib : SLib) (suf : Suffixes) (version : String) (ast : Ast) (conf : SConf) (m : Model)
    (h : Smithy.toSadl lib suf version ast conf = .ok m) (name : String) (s : Shape) (hs : (name, s) ∈ ast.shapes) (ht : s.type = "operation")
    (hb : NotBound ast name) (hm : traitMember s "smithy.api#http" "method" = none) : ∃ x ∈ m.schema.operations, PlainOpKept ast name s x := by
  obtain ⟨found, io, imp, h1, h2, -, h3⟩ := toSadl_ops h
  rw [h3]
  refine (importShapes_op h2 hs ?_ ht).2 hm
  intro hi
  rcases scanShapes_io h1 name hi with h4 | ⟨k, op, h4, h5, h6⟩
  · cases h4
  · rcases h6 with h6 | h6
    · exact (hb k op h4 h5).1 h6
    · exact (hb k op h4 h5).2 h6

/-- The input of an operation: one member in the path, two in the query, one in a header. -/
def findIn : Shape where
  type := "structure"
  members := [("id", { target := "smithy.api#String", traits := [("smithy.api#httpLabel", .bool true), ("smithy.api#required", .bool true)] }),
    ("limit", { target := "smithy.api#Integer", traits := [("smithy.api#httpQuery", .str "limit")] }),
    ("skip", { target := "smithy.api#Integer", traits := [("smithy.api#httpQuery", .str "skip")] }),
    ("tag", { target := "smithy.api#String", traits := [("smithy.api#httpHeader", .str "X-Tag")] })]

/-- An operation with a binding. -/
def findOp : Shape where
  type := "operation"
  input := some "x#FindIn"
  output := some "x#Found"
  errors := ["x#Missing"]
  traits := [("smithy.api#http", .obj [("method", .str "GET"), ("uri", .str "/items/{id}"), ("code", .int 203)])]

/-- A model with an action and an operation. -/
def findAst : Ast where
  shapes := [("x#Find", findOp), ("x#FindIn", findIn), ("x#Found", { type := "structure", members := [("item", { target := "smithy.api#String", traits := [("smithy.api#httpPayload", .bool true)] })] }),
    ("x#Missing", { type := "structure", traits := [("smithy.api#httpError", .int 404)] }), ("x#Run", { type := "operation", input := some "x#RunIn", errors := ["x#Missing"] }),
    ("x#RunIn", { type := "structure", members := [("n", { target := "smithy.api#Integer" })] })]

theorem find_imported : ∃ m, Smithy.toSadl plainS {} "" findAst {} = .ok m := by
  have h : (match Smithy.toSadl plainS {} "" findAst {} with | .ok _ => true | _ => false) = true := by decide +kernel
  cases hm : Smithy.toSadl plainS {} "" findAst {} with
  | ok m => exact ⟨m, rfl⟩
  | _ => rw [hm] at h; cases h

theorem find_notBound {name : String} (h1 : name ∉ ["x#FindIn", "x#Found", "x#RunIn"]) : NotBound findAst name := by
  simp only [List.mem_cons, List.not_mem_nil, or_false, not_or] at h1
  intro k op hm ht
  simp only [findAst, List.mem_cons, Prod.mk.injEq, List.not_mem_nil, or_false] at hm
  rcases hm with ⟨-, rfl⟩ | ⟨-, rfl⟩ | ⟨-, rfl⟩ | ⟨-, rfl⟩ | ⟨-, rfl⟩ | ⟨-, rfl⟩
  case inl => exact ⟨fun e => h1.1 (Option.some.inj e).symm, fun e => h1.2.1 (Option.some.inj e).symm⟩
  case inr.inr.inr.inr.inl => exact ⟨fun e => h1.2.2 (Option.some.inj e).symm, by simp⟩
  all_goals (exfalso; revert ht; decide)

/-- The action has the method, the path with the query, the inputs, the status and the exception of the operation. -/
example : ∃ m h a b c d e x, Smithy.toSadl plainS {} "" findAst {} = .ok m ∧ h ∈ m.schema.http ∧ h.name = "find" ∧ h.method = "GET" ∧
    h.path = "/items/{id}?limit={limit}&skip={skip}" ∧ h.inputs = [a, b, c, d] ∧ a.path = true ∧ a.field.required = true ∧ b.query = "limit" ∧ b.field.ts.type = "Int32" ∧
    c.field.name = "skip" ∧ d.header = "X-Tag" ∧ h.expected = some e ∧ e.status = 203 ∧ h.exceptions = [x] ∧ x.type = "Missing" ∧ x.status = 404 := by
  obtain ⟨m, hm⟩ := find_imported
  obtain ⟨h, h1, h2⟩ := C118_actions_partial _ _ _ _ _ _ hm "x#Find" findOp (.head _) rfl (find_notBound (by decide)) "GET" rfl (by decide)
  have bound : ∃ km ∈ findIn.members, mget km.2.traits "smithy.api#httpPayload" = some (.bool true) ∨ mget km.2.traits "smithy.api#httpLabel" = some (.bool true) :=
    ⟨_, .head _, .inr rfl⟩
  have h3 := h2.inputs.bound "x#FindIn" findIn rfl (by decide) rfl bound
  obtain ⟨e, h4, h5, h6, h7⟩ := h2.outputs
  have h8 := h2.errors
  have h9 := h2.method
  generalize hps : h.inputs = ps at h3
  generalize hxs : h.exceptions = xs at h8
  cases h3 with
  | cons a h3 => cases h3 with
    | cons b h3 => cases h3 with
      | cons c h3 => cases h3 with
        | cons d h3 => cases h3 with
          | nil => cases h8 with
            | cons x h8 => cases h8 with
              | nil =>
                obtain ⟨st, s1, s2, s3⟩ := x.shape
                have : st = { type := "structure", traits := [("smithy.api#httpError", .int 404)] } := (Option.some.inj s1).symm
                subst this
                refine ⟨m, h, _, _, _, _, e, _, hm, h1, h2.name "x" 'F' ['i', 'n', 'd'] (by decide) (by decide) (by decide), ?_, ?_, hps, a.path.set _ rfl, a.required.set _ rfl,
                  b.query.set _ rfl, b.type.prelude _ (by decide), c.name, d.header.set _ rfl, h4, h7 (.int 203) rfl (by decide) (by decide) (by decide), hxs,
                  x.type.own "x" "Missing" (by decide) (by decide) (by decide), s3 (.int 404) rfl (by decide) (by decide)⟩
                · have : some (Value.str "GET") = some (Value.str h.method) := h9
                  injection this with this; injection this with this; exact this.symm
                · rw [((h2.path "/items/{id}" rfl).2 "x#FindIn" findIn rfl (by decide) rfl).2 bound]
                  decide

/-- The operation has the input and the exception. -/
example : ∃ m o f, Smithy.toSadl plainS {} "" findAst {} = .ok m ∧ o ∈ m.schema.operations ∧ o.name = "run" ∧ o.inputs = [f] ∧ f.name = "n" ∧ f.ts.type = "Int32" ∧ o.outputs = [] := by
  obtain ⟨m, hm⟩ := find_imported
  obtain ⟨o, h1, h2⟩ := C118_operations _ _ _ _ _ _ hm "x#Run" _ (.tail _ (.tail _ (.tail _ (.tail _ (.head _))))) rfl (find_notBound (by decide)) rfl
  have h3 := h2.inputs "x#RunIn" _ rfl rfl
  generalize hps : o.inputs = ps at h3
  cases h3 with
  | cons a h3 => cases h3 with
    | nil => exact ⟨m, o, _, hm, h1, h2.name "x" 'R' ['u', 'n'] (by decide) (by decide) (by decide), hps, a.1, a.2.1.prelude _ (by decide), h2.noOutputs rfl⟩

/-- An operation `x#Put` with the given input and output. -/
def putAst (input output : Option String) (shapes : GoMap Shape) : Ast where
  shapes := ("x#Put", { type := "operation", input := input, output := output, traits := [("smithy.api#http", .obj [("method", .str "PUT"), ("uri", .str "/")])] }) :: shapes

/-- A structure without bindings is the body of the action, but its type does not exist. -/
theorem C118_refuted_body : ∃ m h p, Smithy.toSadl plainS {} "" (putAst (some "x#Item") none [("x#Item", { type := "structure", members := [("a", { target := "smithy.api#String" })] })]) {} = .ok m ∧
    m.schema.http = [h] ∧ h.inputs = [p] ∧ p.field.ts.type = "Item" ∧ m.findType "Item" = none ∧ m.schema.types = [] :=
  ⟨_, _, _, rfl, rfl, rfl, by decide +kernel, by decide +kernel, rfl⟩

/-- The binding of a structure of which all members are in headers is lost. -/
theorem C118_refuted_header : ∃ m h p, Smithy.toSadl plainS {} "" (putAst (some "x#Item") none [("x#Item", { type := "structure", members := [("a", { target := "smithy.api#String", traits := [("smithy.api#httpHeader", .str "X-A")] })] })]) {} = .ok m ∧
    m.schema.http = [h] ∧ h.inputs = [p] ∧ p.header = "" ∧ p.field.name = "body" :=
  ⟨_, _, _, rfl, rfl, rfl, rfl, rfl⟩

/-- An output structure with the name of a shape of the prelude is taken for it, and an input structure is not. -/
theorem C118_refuted_output : ∃ m h p e q, Smithy.toSadl plainS {} "" (putAst (some "x#Document") (some "x#Document") [("x#Document", { type := "structure" })]) {} = .ok m ∧
    m.schema.http = [h] ∧ h.inputs = [p] ∧ p.field.ts.type = "Document" ∧ h.expected = some e ∧ e.outputs = [q] ∧ q.field.ts.type = "Struct" :=
  ⟨_, _, _, _, _, rfl, rfl, rfl, by decide +kernel, rfl, rfl, by decide +kernel⟩

end Props
end Sadl
