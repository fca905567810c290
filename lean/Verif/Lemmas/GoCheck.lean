import Verif.Lemmas.GoCompiles
/-
A check that is enough for a file to respect the rules of Go; for examples.
-/
namespace Sadl
open Sadl.Spec

def goPartsIn : GoDecl → List (String × GoTy)
  | .struct n fs => fs.map fun f => (n, f.type)
  | .union n _ fs => fs.map fun f => (n, f.type)
  | .defn n t _ => [(n, t)]
  | _ => []

def lowerRank (rank : String → Nat) (p : String × GoTy) : Bool :=
  match p.2 with
  | .ident b => decide (rank b < rank p.1)
  | _ => true

def plainKey (parts : List (String × GoTy)) : GoTy → Bool
  | .ident b => parts.all fun p => p.1 ≠ b
  | .ptr _ => true
  | _ => false

def isFromString : GoDecl → Bool
  | .fromString _ => true
  | _ => false

structure GoChecked (f : GoFile) (rank : String → Nat) : Prop where
  idents : ∀ d ∈ f.decls, (∀ n ∈ DeclaredNames d, GoIdent n) ∧ ∀ n ∈ InnerNames d, GoIdent n
  quoted : ∀ d ∈ f.decls, ∀ t ∈ QuotedTexts d, ∀ c ∈ t.toList, c ≠ '"' ∧ c ≠ '\\' ∧ c ≠ '\n'
  once : (f.decls.flatMap DeclaredNames).Nodup
  onceInside : ∀ d ∈ f.decls, (InnerNames d).Nodup
  errorField : ∀ d ∈ f.decls, ∀ n ∈ DeclaredTypes d, .errorMethod n ∈ f.decls → "Error" ∉ InnerNames d
  resolved : ∀ d ∈ f.decls, ∀ n ∈ UsedTypes d, n ∈ GoPredeclared ∨ ∃ d' ∈ f.decls, n ∈ DeclaredTypes d'
  packages1 : ∀ p ∈ f.imports, ∃ d ∈ f.decls, p ∈ UsedPackages d
  packages2 : ∀ d ∈ f.decls, ∀ p ∈ UsedPackages d, p ∈ f.imports
  returns : ∀ d ∈ f.decls, isFromString d = false
  finite : ∀ p ∈ f.decls.flatMap goPartsIn, lowerRank rank p = true
  keys : ∀ p ∈ f.decls.flatMap goPartsIn, ∀ k ∈ GoTyKeys p.2, plainKey (f.decls.flatMap goPartsIn) k = true

theorem hasPart_mem {f : GoFile} {n : String} {t : GoTy} (h : GoHasPart f n t) : (n, t) ∈ f.decls.flatMap goPartsIn := by
  rw [List.mem_flatMap]
  cases h with
  | struct h1 h2 => exact ⟨_, h1, List.mem_map.2 ⟨_, h2, rfl⟩⟩
  | union h1 h2 => exact ⟨_, h1, List.mem_map.2 ⟨_, h2, rfl⟩⟩
  | defn h1 => exact ⟨_, h1, by simp [goPartsIn]⟩

theorem GoChecked.compiles {f : GoFile} {rank : String → Nat} (h : GoChecked f rank) : GoCompiles f := by
  have lower : ∀ {a b}, Relation.TransGen (fun a b => GoHasPart f a (.ident b)) a b → rank b < rank a := by
    intro a b hab
    have one : ∀ {a b}, GoHasPart f a (.ident b) → rank b < rank a := by
      intro a b hp
      simpa [lowerRank] using h.finite _ (hasPart_mem hp)
    induction hab with
    | single h => exact one h
    | tail _ h ih => exact Nat.lt_trans (one h) ih
  refine ⟨fun d hd n hn => hn.elim ((h.idents d hd).1 n) ((h.idents d hd).2 n), h.quoted, h.once, h.onceInside, h.errorField, h.resolved,
    fun p => ⟨h.packages1 p, fun ⟨d, hd, hp⟩ => h.packages2 d hd p hp⟩, ?_, ?_, ?_⟩
  · intro d hd
    have := h.returns d hd
    cases d <;> first | trivial | cases this
  · intro n hn
    exact absurd (lower hn) (Nat.lt_irrefl _)
  · intro n t hp k hk hno
    have := h.keys _ (hasPart_mem hp) k hk
    cases hno with
    | slice => cases this
    | map => cases this
    | named h1 _ =>
      simp only [plainKey, List.all_eq_true] at this
      simpa using this _ (hasPart_mem h1)

set_option synthInstance.maxSize 1024 in
set_option synthInstance.maxHeartbeats 200000 in
instance (f : GoFile) (rank : String → Nat) : Decidable (GoChecked f rank) :=
  decidable_of_iff ((∀ d ∈ f.decls, (∀ n ∈ DeclaredNames d, GoIdent n) ∧ ∀ n ∈ InnerNames d, GoIdent n) ∧
    (∀ d ∈ f.decls, ∀ t ∈ QuotedTexts d, ∀ c ∈ t.toList, c ≠ '"' ∧ c ≠ '\\' ∧ c ≠ '\n') ∧
    (f.decls.flatMap DeclaredNames).Nodup ∧ (∀ d ∈ f.decls, (InnerNames d).Nodup) ∧
    (∀ d ∈ f.decls, ∀ n ∈ DeclaredTypes d, .errorMethod n ∈ f.decls → "Error" ∉ InnerNames d) ∧
    (∀ d ∈ f.decls, ∀ n ∈ UsedTypes d, n ∈ GoPredeclared ∨ ∃ d' ∈ f.decls, n ∈ DeclaredTypes d') ∧
    (∀ p ∈ f.imports, ∃ d ∈ f.decls, p ∈ UsedPackages d) ∧ (∀ d ∈ f.decls, ∀ p ∈ UsedPackages d, p ∈ f.imports) ∧
    (∀ d ∈ f.decls, isFromString d = false) ∧ (∀ p ∈ f.decls.flatMap goPartsIn, lowerRank rank p = true) ∧
    ∀ p ∈ f.decls.flatMap goPartsIn, ∀ k ∈ GoTyKeys p.2, plainKey (f.decls.flatMap goPartsIn) k = true)
    ⟨fun ⟨a, b, c, d, e, f, g, h, i, j, k⟩ => ⟨a, b, c, d, e, f, g, h, i, j, k⟩,
     fun ⟨a, b, c, d, e, f, g, h, i, j, k⟩ => ⟨a, b, c, d, e, f, g, h, i, j, k⟩⟩

end Sadl
