import Verif.Lemmas.SmithyOnly
import Verif.Props.SmithySafe
/-
C117, C118: the import of a Smithy model makes nothing but what is in it.
-/
namespace Sadl
namespace Props
open Sadl.Spec Sadl.Smithy

theorem notBound_of {service : String} {ast : Ast} {r : (String × String) × List String} (h : scanShapes service ast.shapes ("", "") [] = .ok r) {name : String} (hn : name ∉ r.2) :
    NotBound ast name := fun k op hm ht =>
  ⟨fun e => hn ((scanShapes_bound h).2 name k op hm ht (.inl e)), fun e => hn ((scanShapes_bound h).2 name k op hm ht (.inr e))⟩

/-- C117: every type of an imported Smithy model has the name of a shape that is not the input or output of an operation. -/
theorem C117_only (lib : SLib) (suf : Suffixes) (version : String) (ast : Ast) (conf : SConf) (m : Model)
    (h : Smithy.toSadl lib suf version ast conf = .ok m) (td : TypeDef) (ht : td ∈ m.schema.types) :
    ∃ name s, (name, s) ∈ ast.shapes ∧ NotBound ast name ∧ s.type ∈ shapeKinds ++ ["boolean"] ∧
      ∀ ns loc : String, name = ns ++ "#" ++ loc → '#' ∉ ns.toList → td.name = loc := by
  obtain ⟨found, io, imp, h1, h2, h3, -⟩ := toSadl_parts h
  rw [h3] at ht
  rcases (importShapes_adds h2).1 td ht with hx | ⟨name, s, a, b, c, d⟩
  · cases hx
  · exact ⟨name, s, a, notBound_of h1 b, c, fun ns loc e hh => by rw [d, e, local_name ns loc hh]⟩

/-- C118: every action of an imported Smithy model is that of an operation with an HTTP binding. -/
theorem C118_only (lib : SLib) (suf : Suffixes) (version : String) (ast : Ast) (conf : SConf) (m : Model)
    (h : Smithy.toSadl lib suf version ast conf = .ok m) :
    (∀ x ∈ m.schema.http, ∃ name s, (name, s) ∈ ast.shapes ∧ s.type = "operation" ∧ HasMethod s ∧ SmallName name x.name) ∧
    (∀ x ∈ m.schema.operations, ∃ name s, (name, s) ∈ ast.shapes ∧ s.type = "operation" ∧ ¬HasMethod s ∧ SmallName name x.name) := by
  obtain ⟨found, io, imp, h1, h2, h3, h4⟩ := toSadl_ops h
  constructor
  · intro x hx
    rw [h3] at hx
    rcases (importShapes_adds h2).2.1 x hx with hx | ⟨name, s, a, b, c, d, e⟩
    · cases hx
    · exact ⟨name, s, a, c, d, by rw [e]; exact smallName name⟩
  · intro x hx
    rw [h4] at hx
    rcases (importShapes_adds h2).2.2 x hx with hx | ⟨name, s, a, b, c, d, e⟩
    · cases hx
    · exact ⟨name, s, a, c, d, by rw [e]; exact smallName name⟩

/-- The model with an action and an operation has one of each, and the type for the error. -/
example : ∃ m, Smithy.toSadl plainS {} "" findAst {} = .ok m ∧ m.schema.types.length = 1 ∧ m.schema.http.length = 1 ∧ m.schema.operations.length = 1 := by
  have h : (match Smithy.toSadl plainS {} "" findAst {} with | .ok m => m.schema.types.length == 1 && m.schema.http.length == 1 && m.schema.operations.length == 1 | _ => false) = true := by decide +kernel
  cases hm : Smithy.toSadl plainS {} "" findAst {} with
  | ok m =>
    rw [hm] at h
    simp only [Bool.and_eq_true, beq_iff_eq] at h
    exact ⟨m, rfl, h.1.1, h.1.2, h.2⟩
  | _ => rw [hm] at h; cases h

end Props
end Sadl
