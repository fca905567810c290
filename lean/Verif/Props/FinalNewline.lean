import Verif.Props.Accepted
import Verif.Props.Includes
import Verif.Lemmas.FinalNewlineTop
/-
C31: the final newline.
-/
namespace Sadl.Props
open Sadl Sadl.Spec

/-- `type S Struct { a String }` over three lines, without the final newline. -/
def structSource : List Token :=
  [sym "type", sym "S", sym "Struct", punct .openBrace, nl, sym "a", sym "String", nl, punct .closeBrace]

/-- C31 refuted: a source whose last definition is a struct type parses with its final newline,
and is an error without it. -/
theorem C31_refuted :
    typeNames (parseNoValidate noLib (fun _ => none) (initialSchema "" "") (structSource ++ [nl])) = some ["S"] ∧
    ∃ e, parseNoValidate noLib (fun _ => none) (initialSchema "" "") structSource = some (.err e) := by
  refine ⟨by decide +kernel, "Expected one of 'type', 'namespace', ...", ?_⟩
  have h : (match parseNoValidate noLib (fun _ => none) (initialSchema "" "") structSource with
      | some (.err e) => e == "Expected one of 'type', 'namespace', ..."
      | _ => false) = true := by decide +kernel
  split at h
  · next e he => rw [he, eq_of_beq h]
  · simp at h

/-- The source does not end with a line comment: the last token that is not a `/* … */` comment is not one. -/
def NoCommentAtEnd (toks : List Token) : Prop :=
  ∀ pre t bs, toks = pre ++ t :: bs → (∀ b ∈ bs, b.type = .blockComment) → t.type ≠ .lineComment

/-- C31, the other way round: a source that parses (and that does not end with a line comment) also parses, to the same schema, when a newline is
added at its end. -/
theorem C31_added_partial (lib : PLib) (incl : String → IncRes) (init : Schema) (toks : List Token) (n : Token) (m : Model)
    (hn : n.type = .newline) (hc : NoCommentAtEnd toks) (h : parseNoValidate lib incl init toks = some (.ok m)) :
    parseNoValidate lib incl init (toks ++ [n]) = some (.ok m) := by
  obtain ⟨sch, s1, hs, hm⟩ : ∃ sch s1, parseSchema lib incl init toks = .ok sch s1 ∧ newModel sch = .ok m := by
    unfold parseNoValidate at h
    cases e : parseSchema lib incl init toks with
    | ok sch s1 => rw [e] at h; exact ⟨sch, s1, rfl, Option.some.inj h⟩
    | err _ _ => rw [e] at h; cases h
    | panic _ => rw [e] at h; cases h
    | hang => rw [e] at h; cases h
  have k : ∃ s1', parseSchema lib incl init (toks ++ [n]) = .ok sch s1' := by
    rcases FinalNl.skip_or toks with hk | ⟨pre, t, bs, rfl, ht, hb⟩
    · obtain ⟨s2, e⟩ := FinalNl.parseSchema_skip lib incl init hk
      rw [e] at hs
      cases hs
      exact FinalNl.parseSchema_skip_newline hn lib incl init hk
    · exact FinalNl.parseSchema_newline hn ht (hc pre t bs rfl hb) lib incl init pre bs hb hs
  obtain ⟨s1', e⟩ := k
  unfold parseNoValidate
  rw [e]
  exact congrArg some hm

/-- C31: removing the final newline never changes the schema: the shorter source parses to the same schema, or it does not parse. -/
theorem C31_removed_partial (lib : PLib) (incl : String → IncRes) (init : Schema) (toks : List Token) (n : Token) (m : Model)
    (hn : n.type = .newline) (hc : NoCommentAtEnd toks) (h : parseNoValidate lib incl init (toks ++ [n]) = some (.ok m)) :
    parseNoValidate lib incl init toks = some (.ok m) ∨ ∀ m', parseNoValidate lib incl init toks ≠ some (.ok m') := by
  by_cases hx : ∃ m', parseNoValidate lib incl init toks = some (.ok m')
  · obtain ⟨m', h'⟩ := hx
    have := C31_added_partial lib incl init toks n m' hn hc h'
    rw [this] at h
    cases h
    exact .inl h'
  · exact .inr fun m' h' => hx ⟨m', h'⟩

/-- C31 with validation: the same holds of the schemas that are accepted. -/
theorem C31_accepted_partial (lib : PLib) (incl : String → IncRes) (init : Schema) (toks : List Token) (n : Token) (m : Model)
    (hn : n.type = .newline) (hc : NoCommentAtEnd toks) (h : Parses lib incl init toks m) : Parses lib incl init (toks ++ [n]) m := by
  rw [parses_iff] at h ⊢
  exact ⟨C31_added_partial lib incl init toks n m hn hc h.1, h.2⟩

/-- `type B Bytes (minsize=1)` and `type L List<B>`, without a newline at the end. -/
def listEndSource : List Token :=
  [sym "type", sym "B", sym "Bytes", punct .openParen, sym "minsize", punct .equals, num "1", punct .closeParen, nl,
   sym "type", sym "L", sym "List", punct .openAngle, sym "B", punct .closeAngle]

/-- Its hypotheses hold of this source, that defines two types either way. -/
theorem C31_example : NoCommentAtEnd listEndSource ∧ typeNames (parseNoValidate noLib (fun _ => none) (initialSchema "" "") listEndSource) = some ["B", "L"] ∧
    typeNames (parseNoValidate noLib (fun _ => none) (initialSchema "" "") (listEndSource ++ [nl])) = some ["B", "L"] := by
  refine ⟨?_, by decide +kernel, by decide +kernel⟩
  intro pre t bs h hb
  have hall : ∀ x ∈ listEndSource, x.type ≠ .lineComment := by decide
  exact hall t (h ▸ by simp)

/-- `type U Union { a String }`, with a comment at the end. -/
def unionComment : List Token :=
  [sym "type", sym "U", sym "Union", punct .openBrace, nl, sym "a", sym "String", nl, punct .closeBrace, { type := .lineComment, text := "c" }]

/-- The comments of the types. -/
def typeComments (r : IncRes) : Option (List String) :=
  match r with
  | some (.ok m) => some (m.schema.types.map (·.comment))
  | _ => none

/-- C31 refuted for a source that ends with a comment: the comment on a union type is doubled when the final newline is removed. -/
theorem C31_refuted_comment :
    typeComments (parseNoValidate noLib (fun _ => none) (initialSchema "" "") (unionComment ++ [nl])) = some ["c"] ∧
    typeComments (parseNoValidate noLib (fun _ => none) (initialSchema "" "") unionComment) = some ["c c"] := by decide +kernel

end Sadl.Props
