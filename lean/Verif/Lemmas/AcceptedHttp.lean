import Verif.Lemmas.ParserHttp
import Verif.Lemmas.ParserTypeNames
/-
What is known of the actions of a parsed source.
-/
namespace Sadl
open Sadl.Spec

theorem parsedHttp_of_source {lib : PLib} {incl : String → IncRes} {init : Schema} {toks : List Token} {m : Model}
    (hI : ∀ f m, incl f = some (.ok m) → ∀ x ∈ m.schema.http, ParsedHttp x) (h0 : ∀ x ∈ init.http, ParsedHttp x)
    (ht : ∀ t ∈ toks, NonEmptySymbol t) (h : parseNoValidate lib incl init toks = some (.ok m)) : ∀ x ∈ m.schema.http, ParsedHttp x := by
  obtain ⟨s, hs, _⟩ := parseNoValidate_ok h
  exact (parseSchema_allT (ok := NonEmptySymbol) (PT := fun _ => True) (PH := ParsedHttp) (PO := fun _ => True) (PE := fun _ => True)
    (fun _ _ _ => trivial) (fun _ _ hx => ⟨hx.1, hx.2, hx.3, hx.4, hx.5⟩) (fun _ _ _ => trivial)
    (fun _ => rett_of_ret (ret_true _)) (fun c => rett_of_ret (ret_parseHttpDirective lib c)) (fun _ => rett_of_ret (ret_true _))
    (fun _ => rett_of_ret (ret_true _))
    (fun f m hf => ⟨fun _ _ => trivial, hI f m hf, fun _ _ => trivial, fun _ _ => trivial⟩)
    ⟨fun _ _ => trivial, h0, fun _ _ => trivial, fun _ _ => trivial⟩ ht hs).http

end Sadl
