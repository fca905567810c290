import Verif.Lemmas.ParserNames
import Verif.Lemmas.ParserReal
/-
The types of a parsed source have names.
-/
namespace Sadl
open Sadl.Spec

theorem ret_name_options (lib : PLib) (td : TypeDef) (acc : List String) :
    Ret (parseTypeOptions lib td acc) (fun td' => td'.name = td.name) := by
  unfold parseTypeOptions
  exact ret_bind' (fun o => ret_pure rfl)

theorem ret_name_simple (lib : PLib) (td : TypeDef) (acc : List String) :
    Ret (parseSimpleDef lib td acc) (fun td' => td'.name = td.name) := by
  unfold parseSimpleDef
  exact ret_bind (ret_name_options lib td acc) (fun td' h => ret_bind' (fun c => ret_pure h))

theorem rett_parseTypeDirective_named (lib : PLib) (c : String) :
    RetT NonEmptySymbol (parseTypeDirective lib c) (fun td => td.name ≠ "") := by
  unfold parseTypeDirective
  refine rett_bind safe_expectIdentifier (rett_expectIdentifier (Q := fun x => x ≠ "") (fun t h1 h2 => h1 h2)) (fun tn hn => ?_)
  refine rett_of_ret (ret_bind' (fun e => ?_))
  dsimp only
  split
  case h_12 =>
    unfold parseStringDef
    refine ret_bind (ret_name_simple lib _ _) (fun td h => ret_pure ?_)
    split
    · exact h ▸ hn
    · exact h ▸ hn
  case h_14 =>
    unfold parseUnitValueDef
    exact ret_bind (ret_name_options lib _ _) (fun td h => ret_bind' (fun _ => ret_bind' (fun _ => ret_pure (h ▸ hn))))
  case h_15 =>
    unfold parseArrayDef
    exact ret_bind' (fun _ => ret_mono (ret_name_simple lib _ _) (fun td h => h ▸ hn))
  case h_16 =>
    unfold parseArrayDef
    exact ret_bind' (fun _ => ret_mono (ret_name_simple lib _ _) (fun td h => h ▸ hn))
  case h_17 =>
    unfold parseMapDef
    exact ret_bind' (fun _ => ret_mono (ret_name_simple lib _ _) (fun td h => h ▸ hn))
  case h_18 =>
    unfold parseStructDef
    exact ret_bind (ret_name_options lib _ _) (fun td h => ret_pure (h ▸ hn))
  case h_19 => exact ret_pure hn
  case h_20 =>
    unfold parseUnionDef
    refine ret_bind (ret_name_options lib _ _) (fun td h => ret_ite (fun _ => ret_syntaxError) (fun _ => ?_))
    exact ret_bind' (fun _ => ret_pure (h ▸ hn))
  case h_21 => exact ret_fail
  all_goals exact ret_mono (ret_name_simple lib _ _) (fun td h => h ▸ hn)

theorem namedTypes_of_source {lib : PLib} {incl : String → IncRes} {init : Schema} {toks : List Token} {m : Model}
    (hI : ∀ f m, incl f = some (.ok m) → ∀ td ∈ m.schema.types, td.name ≠ "") (h0 : ∀ td ∈ init.types, td.name ≠ "")
    (ht : ∀ t ∈ toks, NonEmptySymbol t)
    (h : parseNoValidate lib incl init toks = some (.ok m)) : ∀ td ∈ m.schema.types, td.name ≠ "" := by
  obtain ⟨s, hs, _⟩ := parseNoValidate_ok h
  have := parseSchema_allT (ok := NonEmptySymbol) (PT := fun td => td.name ≠ "") (PH := fun _ => True) (PO := fun _ => True)
    (PE := fun _ => True)
    (fun _ _ hx => hx) (fun _ _ _ => trivial) (fun _ _ _ => trivial)
    (rett_parseTypeDirective_named lib) (fun _ => rett_of_ret (ret_true _)) (fun _ => rett_of_ret (ret_true _)) (fun _ => rett_of_ret (ret_true _))
    (fun f m hf => ⟨hI f m hf, fun _ _ => trivial, fun _ _ => trivial, fun _ _ => trivial⟩)
    ⟨h0, fun _ _ => trivial, fun _ _ => trivial, fun _ _ => trivial⟩ ht hs
  exact this.types

theorem namedTypes_of_file {lib : PLib} {files : String → Option (List Token)}
    (hf : ∀ f toks, files f = some toks → ∀ t ∈ toks, NonEmptySymbol t) (n : Nat) : ∀ (f : String) (m : Model),
    parseFileN lib files n f = some (.ok m) → ∀ td ∈ m.schema.types, td.name ≠ "" := by
  induction n with
  | zero => intro f m h; cases h
  | succ n ih =>
    intro f m h
    unfold parseFileN at h
    cases hft : files f with
    | none => rw [hft] at h; simp at h
    | some toks =>
      rw [hft] at h
      exact namedTypes_of_source ih (by simp [initialSchema]) (hf f toks hft) h

end Sadl
