import Verif.Lemmas.SmithySafe
import Verif.Props.SmithyOps
/-
C119: when the import of a Smithy model panics.
-/
namespace Sadl
namespace Props
open Sadl.Spec Sadl.Smithy

/-- C119: the import of a Smithy model panics exactly if its service is clear and some shape that is not the input or output of an operation is not safe. -/
theorem C119_panics (lib : SLib) (suf : Suffixes) (version : String) (ast : Ast) (conf : SConf) (hk : ∀ p ∈ ast.shapes, p.1 ≠ "") :
    (∃ e, Smithy.toSadl lib suf version ast conf = .panic e) ↔ OneService ast conf ∧ ∃ name s, (name, s) ∈ ast.shapes ∧ NotBound ast name ∧ ¬ShapeSafe ast s := by
  have hscan := scanShapes_ok conf.service ast.shapes ("", "") [] hk
  unfold OneService
  by_cases c : conf.service ≠ "" ∨ (ast.shapes.filter fun p => p.2.type = "service").length ≤ 1
  · rw [if_pos (by simpa using c)] at hscan
    obtain ⟨⟨found, io⟩, h1⟩ := hscan
    have hb : ∀ name, name ∉ io ↔ NotBound ast name := by
      intro name
      constructor
      · intro hn k op hm ht
        exact ⟨fun e => hn ((scanShapes_bound h1).2 name k op hm ht (.inl e)), fun e => hn ((scanShapes_bound h1).2 name k op hm ht (.inr e))⟩
      · intro hb hm
        rcases scanShapes_io h1 name hm with h4 | ⟨k, op, h4, h5, h6⟩
        · cases h4
        · rcases h6 with h6 | h6
          · exact (hb k op h4 h5).1 h6
          · exact (hb k op h4 h5).2 h6
    have hi := importShapes_safe lib suf ast io found.1 ast.shapes {}
    unfold Smithy.toSadl
    rw [h1]
    constructor
    · rintro ⟨e, he⟩
      refine ⟨c, ?_⟩
      by_contra hall
      obtain ⟨imp, h2⟩ := hi.1 fun p hp hn => by
        by_contra hs
        exact hall ⟨p.1, p.2, hp, (hb _).1 hn, hs⟩
      simp only [Out.bind_ok, h2] at he
      exact newModel_no_panic _ _ he
    · rintro ⟨_, name, s, hm, hn, hs⟩
      obtain ⟨e, h2⟩ := hi.2 fun hall => hs (hall _ hm ((hb _).2 hn))
      exact ⟨e, by simp only [Out.bind_ok, h2]; rfl⟩
  · rw [if_neg (by simpa using c)] at hscan
    obtain ⟨e, h1⟩ := hscan
    unfold Smithy.toSadl
    rw [h1]
    constructor
    · rintro ⟨e, he⟩
      cases he
    · rintro ⟨h, _⟩
      exact absurd h c

/-- C119: a Smithy model all of whose shapes are safe, but for inputs and outputs of operations, is imported, or refused with an error.
Missing: shapes that are not safe, see the refutations below. -/
theorem C119_safe_partial (lib : SLib) (suf : Suffixes) (version : String) (ast : Ast) (conf : SConf) (hk : ∀ p ∈ ast.shapes, p.1 ≠ "")
    (hs : ∀ p ∈ ast.shapes, NotBound ast p.1 → ShapeSafe ast p.2) (e : String) : Smithy.toSadl lib suf version ast conf ≠ .panic e := by
  intro he
  obtain ⟨_, name, s, hm, hb, hn⟩ := (C119_panics lib suf version ast conf hk).1 ⟨e, he⟩
  exact hn (hs _ hm hb)

/-- The model with an action and an operation is safe. -/
example : ∀ p ∈ findAst.shapes, NotBound findAst p.1 → ShapeSafe findAst p.2 := by
  intro p hp hb
  by_contra hs
  obtain ⟨m, hm⟩ := find_imported
  have hk : ∀ p ∈ findAst.shapes.map Prod.fst, p ≠ "" := by decide
  obtain ⟨e, he⟩ := (C119_panics plainS {} "" findAst {} fun p hp => hk _ (List.mem_map_of_mem hp)).2 ⟨.inr (by decide), p.1, p.2, hp, hb, hs⟩
  rw [hm] at he
  cases he

/-- A shape of a kind that the importer does not know makes it panic. -/
theorem C119_refuted_kind : ∃ e, Smithy.toSadl plainS {} "" { shapes := [("x#Level", { type := "intEnum" })] } {} = .panic e := ⟨_, rfl⟩

/-- An operation whose input is a shape of the prelude, which is not in the model, makes it panic if it has no HTTP binding. -/
theorem C119_refuted_unit : ∃ e, Smithy.toSadl plainS {} "" { shapes := [("x#Run", { type := "operation", input := some "smithy.api#Unit" })] } {} = .panic e := ⟨_, rfl⟩

/-- A trait that is defined by a shape without a definition as a trait. -/
theorem C119_refuted_trait : ∃ e, Smithy.toSadl plainS {} "" { shapes := [("x#N", { type := "integer", traits := [("x#T", .null)] }), ("x#T", { type := "structure" })] } {} = .panic e := ⟨_, rfl⟩

end Props
end Sadl
