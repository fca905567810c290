import Verif.Lemmas.SmithySafe
import Verif.Spec.SmithyExamples
/-
The examples imported for the operations of a Smithy model.
-/
namespace Sadl
namespace Smithy
open Sadl.Spec

theorem entryText_eq (o : GoMap Value) (k : String) : asString (getKey o k) = entryText o k := by
  unfold getKey entryText
  cases h : mget o k with
  | none => rfl
  | some v => cases v <;> rfl

theorem mem_importOpExamples (suf : Suffixes) (name : String) (l : List Value) (ex : ExampleDef) :
    ex ∈ importOpExamples (capitalize name ++ suf.input) (capitalize name ++ suf.output) l ↔ ∃ o, Value.obj o ∈ l ∧ IsOpExample suf name o ex := by
  induction l with
  | nil => simp [importOpExamples]
  | cons v rest ih =>
    cases v
    case obj o =>
      unfold importOpExamples
      dsimp only
      rw [List.mem_append, ih, entryText_eq, entryText_eq, List.mem_append]
      refine (or_congr_left (b := IsOpExample suf name o ex) ?_).trans ?_
      · unfold IsOpExample
        cases mget o "input" <;> cases mget o "output" <;> simp
      constructor
      · rintro (h | ⟨o', h, h'⟩)
        · exact ⟨o, .head _, h⟩
        · exact ⟨o', .tail _ h, h'⟩
      · rintro ⟨o', h, h'⟩
        rcases List.mem_cons.1 h with e | e
        · cases e; exact .inl h'
        · exact .inr ⟨o', e, h'⟩
    all_goals
      unfold importOpExamples
      rw [ih]
      constructor
      · rintro ⟨o', h, h'⟩
        exact ⟨o', .tail _ h, h'⟩
      · rintro ⟨o', h, h'⟩
        rcases List.mem_cons.1 h with e | e
        · cases e
        · exact ⟨o', e, h'⟩

/-- The examples that a shape adds. -/
def opExamples (suf : Suffixes) (io : List String) (p : String × Shape) : List ExampleDef :=
  if p.1 ∈ io then [] else if p.2.type = "operation" then
    importOpExamples (capitalize p.1 ++ suf.input) (capitalize p.1 ++ suf.output) ((p.2.traits.array "smithy.api#examples").getD []) else []

theorem importShape_examples {lib : SLib} {suf : Suffixes} {ast : Ast} {io : List String} {name : String} {s : Shape} {acc acc' : Imported}
    (h : importShape lib suf ast io name s acc = .ok acc') : acc'.examples = acc.examples ++ opExamples suf io (name, s) := by
  unfold opExamples
  dsimp only
  unfold importShape at h
  by_cases c0 : name ∈ io
  · rw [if_pos c0] at h; rw [if_pos c0]; cases h; simp
  rw [if_neg c0] at h
  rw [if_neg c0]
  by_cases c13 : s.type = "operation"
  · rw [if_pos c13]
    rw [c13] at h
    rw [if_neg (by decide)] at h
    iterate 11 (rw [if_neg (by decide)] at h)
    rw [if_pos rfl] at h
    unfold importOperationShape at h
    dsimp only at h
    by_cases c : asString (getKey ((s.traits.map "smithy.api#http").getD []) "method") = ""
    · rw [if_pos c] at h
      obtain ⟨o, _, h⟩ := Out.bind_eq_ok.1 h
      cases h
      rfl
    · rw [if_neg c] at h
      obtain ⟨o, _, h⟩ := Out.bind_eq_ok.1 h
      cases h
      rfl
  rw [if_neg c13, List.append_nil]
  rw [if_neg (c := s.type = "operation") c13] at h
  have add : ∀ {o : Out TypeDef}, (do .ok (acc.add (← o)) : Out Imported) = .ok acc' → acc'.examples = acc.examples := by
    intro o h
    obtain ⟨t, _, h⟩ := Out.bind_eq_ok.1 h
    cases h
    rfl
  have same : (Out.ok acc : Out Imported) = .ok acc' → acc'.examples = acc.examples := by
    intro h
    cases h
    rfl
  by_cases c1 : s.type ∈ numberShapes
  · rw [if_pos c1] at h; exact add h
  rw [if_neg c1] at h
  by_cases c2 : s.type = "string"
  · rw [if_pos c2] at h
    cases hs : importStringShape lib name s with
    | none => rw [hs] at h; exact same h
    | some t => rw [hs] at h; cases h; rfl
  rw [if_neg c2] at h
  by_cases c3 : s.type = "timestamp"
  · rw [if_pos c3] at h; exact add h
  rw [if_neg c3] at h
  by_cases c4 : s.type = "boolean"
  · rw [if_pos c4] at h; exact add h
  rw [if_neg c4] at h
  by_cases c5 : s.type = "list"
  · rw [if_pos c5] at h; exact add h
  rw [if_neg c5] at h
  by_cases c6 : s.type = "set"
  · rw [if_pos c6] at h; exact add h
  rw [if_neg c6] at h
  by_cases c7 : s.type = "map"
  · rw [if_pos c7] at h; exact add h
  rw [if_neg c7] at h
  by_cases c8 : s.type = "structure"
  · rw [if_pos c8] at h; exact add h
  rw [if_neg c8] at h
  by_cases c9 : s.type = "union"
  · rw [if_pos c9] at h; exact add h
  rw [if_neg c9] at h
  by_cases c10 : s.type = "blob"
  · rw [if_pos c10] at h; cases h; rfl
  rw [if_neg c10] at h
  by_cases c11 : s.type = "enum"
  · rw [if_pos c11] at h; exact add h
  rw [if_neg c11] at h
  by_cases c12 : s.type = "service"
  · rw [if_pos c12] at h; exact same h
  rw [if_neg c12] at h
  by_cases c14 : s.type = "resource"
  · rw [if_pos c14] at h; exact same h
  rw [if_neg c14] at h
  cases h

theorem importShapes_examples {lib : SLib} {suf : Suffixes} {ast : Ast} {io : List String} {service : String} {shapes : GoMap Shape} {acc acc' : Imported}
    (h : importShapes lib suf ast io service shapes acc = .ok acc') : acc'.examples = acc.examples ++ shapes.flatMap (opExamples suf io) := by
  induction shapes generalizing acc with
  | nil => cases h; simp
  | cons ks rest ih =>
    obtain ⟨k, s⟩ := ks
    unfold importShapes at h
    rw [List.flatMap_cons]
    by_cases c : s.type ≠ "service" ∨ k = service
    · rw [if_pos c] at h
      obtain ⟨a, h1, h⟩ := Out.bind_eq_ok.1 h
      rw [ih h, importShape_examples h1, List.append_assoc]
    · rw [if_neg c] at h
      have : s.type = "service" := Decidable.not_not.1 fun h => c (.inl h)
      have e : opExamples suf io (k, s) = [] := by
        unfold opExamples
        dsimp only
        rw [this, if_neg (c := "service" = "operation") (by decide)]
        simp
      rw [ih h, e, List.nil_append]

end Smithy
end Sadl
