import Verif.Lemmas.ParserTypeNames
/-
The supertypes of a parsed source are built-in types.
-/
namespace Sadl
open Sadl.Spec

/-- The supertypes that the parser leaves in a type definition: `type X List` keeps the name `List`. -/
def KindOk (td : TypeDef) : Prop := td.ts.type ∈ BaseTypes ∨ td.ts.type = "List"

theorem ret_kind_options (lib : PLib) (td : TypeDef) (acc : List String) :
    Ret (parseTypeOptions lib td acc) (fun td' => td'.ts.type = td.ts.type) := by
  unfold parseTypeOptions
  exact ret_bind' (fun o => ret_pure rfl)

theorem ret_kind_simple (lib : PLib) (td : TypeDef) (acc : List String) :
    Ret (parseSimpleDef lib td acc) (fun td' => td'.ts.type = td.ts.type) := by
  unfold parseSimpleDef
  exact ret_bind (ret_kind_options lib td acc) (fun td' h => ret_bind' (fun c => ret_pure h))

theorem ret_parseTypeDirective_kind (lib : PLib) (c : String) : Ret (parseTypeDirective lib c) KindOk := by
  have base : ∀ {td : TypeDef} {n : String}, td.ts.type = n → n ∈ BaseTypes ∨ n = "List" → KindOk td :=
    fun h hn => by unfold KindOk; rw [h]; exact hn
  unfold parseTypeDirective
  refine ret_bind' (fun tn => ret_bind' (fun e => ?_))
  dsimp only
  split
  case h_12 he =>
    unfold parseStringDef
    refine ret_bind (ret_kind_simple lib _ _) (fun td h => ret_pure ?_)
    split
    · exact base rfl (.inl (by decide : "UUID" ∈ BaseTypes))
    · exact base (h.trans he) (.inl (by decide))
  case h_14 he =>
    unfold parseUnitValueDef
    exact ret_bind (ret_kind_options lib _ _) (fun td h => ret_bind' (fun _ => ret_bind' (fun _ => ret_pure (base (h.trans he) (.inl (by decide))))))
  case h_15 he =>
    unfold parseArrayDef
    exact ret_bind' (fun _ => ret_mono (ret_kind_simple lib _ _) (fun td h => base (h.trans he) (.inl (by decide))))
  case h_16 he =>
    unfold parseArrayDef
    exact ret_bind' (fun _ => ret_mono (ret_kind_simple lib _ _) (fun td h => base (h.trans he) (.inr rfl)))
  case h_17 he =>
    unfold parseMapDef
    exact ret_bind' (fun _ => ret_mono (ret_kind_simple lib _ _) (fun td h => base (h.trans he) (.inl (by decide))))
  case h_18 he =>
    unfold parseStructDef
    exact ret_bind (ret_kind_options lib _ _) (fun td h => ret_pure (base (h.trans he) (.inl (by decide))))
  case h_19 he => exact ret_pure (base (td := _) he (.inl (by decide)))
  case h_20 he =>
    unfold parseUnionDef
    refine ret_bind (ret_kind_options lib _ _) (fun td h => ret_ite (fun _ => ret_syntaxError) (fun _ => ?_))
    exact ret_bind' (fun _ => ret_pure (base (h.trans he) (.inl (by decide))))
  case h_21 => exact ret_fail
  all_goals
    rename_i he
    exact ret_mono (ret_kind_simple lib _ _) (fun td h => base (h.trans he) (.inl (by decide)))

theorem kinds_of_source {lib : PLib} {incl : String → IncRes} {init : Schema} {toks : List Token} {m : Model}
    (hI : ∀ f m, incl f = some (.ok m) → ∀ td ∈ m.schema.types, KindOk td) (h0 : ∀ td ∈ init.types, KindOk td)
    (ht : ∀ t ∈ toks, NonEmptySymbol t)
    (h : parseNoValidate lib incl init toks = some (.ok m)) : ∀ td ∈ m.schema.types, KindOk td := by
  obtain ⟨s, hs, _⟩ := parseNoValidate_ok h
  have := parseSchema_allT (ok := NonEmptySymbol) (PT := KindOk) (PH := fun _ => True) (PO := fun _ => True)
    (PE := fun _ => True)
    (fun _ _ hx => hx) (fun _ _ _ => trivial) (fun _ _ _ => trivial)
    (fun c => rett_of_ret (ret_parseTypeDirective_kind lib c)) (fun _ => rett_of_ret (ret_true _)) (fun _ => rett_of_ret (ret_true _)) (fun _ => rett_of_ret (ret_true _))
    (fun f m hf => ⟨hI f m hf, fun _ _ => trivial, fun _ _ => trivial, fun _ _ => trivial⟩)
    ⟨h0, fun _ _ => trivial, fun _ _ => trivial, fun _ _ => trivial⟩ ht hs
  exact this.types

theorem kinds_of_file {lib : PLib} {files : String → Option (List Token)}
    (hf : ∀ f toks, files f = some toks → ∀ t ∈ toks, NonEmptySymbol t) (n : Nat) : ∀ (f : String) (m : Model),
    parseFileN lib files n f = some (.ok m) → ∀ td ∈ m.schema.types, KindOk td := by
  induction n with
  | zero => intro f m h; cases h
  | succ n ih =>
    intro f m h
    unfold parseFileN at h
    cases hft : files f with
    | none => rw [hft] at h; simp at h
    | some toks =>
      rw [hft] at h
      exact kinds_of_source ih (by simp [initialSchema]) (hf f toks hft) h

end Sadl
