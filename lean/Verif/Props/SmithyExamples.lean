import Verif.Lemmas.SmithyExamples
import Verif.Props.SmithyOnly
/-
C120: the examples of the operations of a Smithy model.
-/
namespace Sadl
namespace Props
open Sadl.Spec Sadl.Smithy

/-- C120: the examples of an imported Smithy model are exactly the inputs and outputs of the examples of its operations, with their title and value. -/
theorem C120_examples_partial (lib : SLib) (suf : Suffixes) (version : String) (ast : Ast) (conf : SConf) (m : Model)
    (h : Smithy.toSadl lib suf version ast conf = .ok m) (ex : ExampleDef) :
    ex ∈ m.schema.examples ↔ ∃ name s l o, (name, s) ∈ ast.shapes ∧ s.type = "operation" ∧ NotBound ast name ∧
      mget s.traits "smithy.api#examples" = some (.arr l) ∧ Value.obj o ∈ l ∧ IsOpExample suf name o ex := by
  unfold Smithy.toSadl at h
  obtain ⟨⟨found, io⟩, h1, h⟩ := Out.bind_eq_ok.1 h
  obtain ⟨imp, h2, h⟩ := Out.bind_eq_ok.1 h
  have h3 := ((newModel_ok_iff _ _).1 h).2.2.2
  subst h3
  show ex ∈ imp.examples ↔ _
  rw [importShapes_examples h2]
  show ex ∈ [] ++ _ ↔ _
  rw [List.nil_append, List.mem_flatMap]
  constructor
  · rintro ⟨⟨name, s⟩, hm, hx⟩
    unfold opExamples at hx
    dsimp only at hx
    by_cases c0 : name ∈ io
    · rw [if_pos c0] at hx; cases hx
    rw [if_neg c0] at hx
    by_cases c1 : s.type = "operation"
    · rw [if_pos c1] at hx
      obtain ⟨o, ho, hi⟩ := (mem_importOpExamples suf name _ ex).1 hx
      unfold Traits.array at ho
      cases ht : mget s.traits "smithy.api#examples" with
      | none => rw [ht] at ho; cases ho
      | some v =>
        rw [ht] at ho
        cases v
        case arr l => exact ⟨name, s, l, o, hm, c1, notBound_of h1 c0, ht, ho, hi⟩
        all_goals cases ho
    · rw [if_neg c1] at hx; cases hx
  · rintro ⟨name, s, l, o, hm, c1, hb, ht, ho, hi⟩
    refine ⟨(name, s), hm, ?_⟩
    have c0 : name ∉ io := by
      intro hio
      rcases scanShapes_io h1 name hio with h4 | ⟨k, op, h4, h5, h6⟩
      · cases h4
      · rcases h6 with h6 | h6
        · exact (hb k op h4 h5).1 h6
        · exact (hb k op h4 h5).2 h6
    unfold opExamples
    dsimp only
    rw [if_neg c0, if_pos c1]
    refine (mem_importOpExamples suf name _ ex).2 ⟨o, ?_, hi⟩
    unfold Traits.array
    rw [ht]
    exact ho

/-- A model with an operation with an example. -/
def shownAst : Ast where
  shapes := [("x#Find", { type := "operation", traits := [("smithy.api#http", .obj [("method", .str "GET"), ("uri", .str "/")]),
    ("smithy.api#examples", .arr [.obj [("title", .str "one"), ("documentation", .str "first"), ("input", .obj [("id", .str "1")]), ("output", .str "found")]])] })]

/-- Its input and output are examples. -/
example : ∃ m, Smithy.toSadl plainS { input := "Input", output := "Output" } "" shownAst {} = .ok m ∧
    { target := "X#FindInput", name := "one", comment := "first", «example» := .obj [("id", .str "1")] } ∈ m.schema.examples ∧
    { target := "X#FindOutput", name := "one", «example» := .str "found" } ∈ m.schema.examples := by
  have h : (match Smithy.toSadl plainS { input := "Input", output := "Output" } "" shownAst {} with | .ok _ => true | _ => false) = true := by decide +kernel
  cases hm : Smithy.toSadl plainS { input := "Input", output := "Output" } "" shownAst {} with
  | ok m =>
    have hb : NotBound shownAst "x#Find" := fun k op hk ht => by
      rw [show shownAst.shapes = [("x#Find", _)] from rfl, List.mem_singleton] at hk
      cases hk
      exact ⟨by simp, by simp⟩
    have e1 : capitalize "x#Find" ++ "Input" = "X#FindInput" := by decide +kernel
    have e2 : capitalize "x#Find" ++ "Output" = "X#FindOutput" := by decide +kernel
    refine ⟨m, rfl, (C120_examples_partial _ _ _ _ _ _ hm _).2 ⟨_, _, _, _, .head _, rfl, hb, rfl, .head _, .inl ⟨_, rfl, ?_⟩⟩,
      (C120_examples_partial _ _ _ _ _ _ hm _).2 ⟨_, _, _, _, .head _, rfl, hb, rfl, .head _, .inr ⟨_, rfl, ?_⟩⟩⟩
    · rw [e1]; rfl
    · rw [e2]; rfl
  | _ => rw [hm] at h; cases h

/-- If the names of the operations have a namespace, the target of an example is never a name of SADL: it contains the character `#`. -/
theorem C120_refuted_target (lib : SLib) (suf : Suffixes) (version : String) (ast : Ast) (conf : SConf) (m : Model)
    (hn : ∀ p ∈ ast.shapes, ∃ (c : Char) (ns loc : String), p.1 = String.ofList (c :: (ns ++ "#" ++ loc).toList))
    (h : Smithy.toSadl lib suf version ast conf = .ok m) (ex : ExampleDef) (hx : ex ∈ m.schema.examples) : '#' ∈ ex.target.toList := by
  obtain ⟨name, s, l, o, hm, -, -, -, -, hi⟩ := (C120_examples_partial lib suf version ast conf m h ex).1 hx
  obtain ⟨c, ns, loc, e⟩ := hn _ hm
  have : '#' ∈ (capitalize name).toList := by
    dsimp only at e
    rw [e]
    unfold capitalize
    rw [String.toList_ofList, String.toList_ofList]
    unfold capitalizeL
    simp [String.toList_append]
  rcases hi with ⟨v, -, rfl⟩ | ⟨v, -, rfl⟩
  · show '#' ∈ (capitalize name ++ suf.input).toList
    rw [String.toList_append]; exact List.mem_append_left _ this
  · show '#' ∈ (capitalize name ++ suf.output).toList
    rw [String.toList_append]; exact List.mem_append_left _ this

/-- The model with the example is of that kind. -/
example : ∀ p ∈ shownAst.shapes, ∃ (c : Char) (ns loc : String), p.1 = String.ofList (c :: (ns ++ "#" ++ loc).toList) := by
  intro p hp
  rw [show shownAst.shapes = [("x#Find", _)] from rfl, List.mem_singleton] at hp
  subst hp
  exact ⟨'x', "", "Find", by decide⟩

end Props
end Sadl
