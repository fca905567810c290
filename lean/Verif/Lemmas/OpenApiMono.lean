import Verif.Lemmas.OpenApi
/-
More steps do not change the result of an export that ended.
-/
namespace Sadl
open Sadl.Spec

/-- `y` is `x`, unless `x` had too few steps. -/
def Ran.Le {α : Type} (x y : Ran α) : Prop := x = .hang ∨ y = x

theorem Ran.Le.rfl {α : Type} {x : Ran α} : x.Le x := .inr (Eq.refl _)
theorem Ran.Le.hang {α : Type} {x : Ran α} : (Ran.hang : Ran α).Le x := .inl (Eq.refl _)

theorem Ran.Le.bind {α β : Type} {x y : Ran α} {f g : α → Ran β} (h : x.Le y) (hf : ∀ a, (f a).Le (g a)) :
    (x >>= f).Le (y >>= g) := by
  rcases h with rfl | rfl
  · exact .inl (by simp)
  · cases y with
    | ok a => simpa using hf a
    | err e => exact .inr (by simp)
    | panic e => exact .inr (by simp)
    | hang => exact .inl (by simp)

theorem Ran.Le.ite {α : Type} {c : Prop} [Decidable c] {a b a' b' : Ran α} (h : a.Le b) (h' : a'.Le b') :
    (if c then a else a').Le (if c then b else b') := by
  split
  · exact h
  · exact h'

theorem oasProps_le {conv conv' : TypeSpec → Ran OSchema} (h : ∀ t, (conv t).Le (conv' t)) (fs : List StructFieldDef) (acc : GoMap OSchema) :
    (oasProps conv fs acc).Le (oasProps conv' fs acc) := by
  induction fs generalizing acc with
  | nil => exact .rfl
  | cons f rest ih => exact Ran.Le.bind (h f.ts) fun _ => ih _

theorem oasStep_le (lib : OLib) (m : Model) {r1 r2 : TypeSpec → String → Ran OSchema} (h : ∀ t n, (r1 t n).Le (r2 t n)) (t : TypeSpec) (nm : String) :
    (oasSchemaStep lib m r1 t nm).Le (oasSchemaStep lib m r2 t nm) := by
  unfold oasSchemaStep
  iterate 8 refine Ran.Le.ite .rfl ?_
  refine Ran.Le.ite ?_ <| Ran.Le.ite ?_ <| Ran.Le.ite (Ran.Le.ite .rfl ?_) .rfl
  · split
    · exact .rfl
    · exact Ran.Le.bind (h _ _) fun _ => .rfl
  · split
    · exact .rfl
    · exact Ran.Le.bind (h _ _) fun _ => .rfl
  · exact Ran.Le.bind (oasProps_le (fun t => h t "") _ _) fun _ => .rfl

theorem oasSchema_le (n : Nat) (lib : OLib) (m : Model) (t : TypeSpec) (nm : String) : (oasSchemaN n lib m t nm).Le (oasSchemaN (n + 1) lib m t nm) := by
  induction n generalizing t nm with
  | zero => exact .hang
  | succ n ih => exact oasStep_le lib m ih t nm

section
variable {conv conv' : TypeSpec → String → Ran OSchema} (hc : ∀ t n, (conv t n).Le (conv' t n))
include hc

theorem exportString_le (td : TypeDef) : (exportString conv td).Le (exportString conv' td) := Ran.Le.bind (hc _ _) fun _ => .rfl

theorem exportInputs_le (l : List HttpParamSpec) (op : OOperation) : (exportInputs conv l op).Le (exportInputs conv' l op) := by
  induction l generalizing op with
  | nil => exact .rfl
  | cons p rest ih => exact Ran.Le.bind (hc _ _) fun _ => ih _

theorem exportOutputs_le (l : List HttpParamSpec) (r : OResponse) : (exportOutputs conv l r).Le (exportOutputs conv' l r) := by
  induction l generalizing r with
  | nil => exact .rfl
  | cons p rest ih => exact Ran.Le.bind (hc _ _) fun _ => ih _

theorem exportOp_le (h : HttpDef) : (exportOp conv h).Le (exportOp conv' h) := by
  refine Ran.Le.bind (exportInputs_le hc _ _) fun op => ?_
  split
  · exact .rfl
  · exact Ran.Le.bind (exportOutputs_le hc _ _) fun _ => .rfl
end

theorem exportTypeDef_le (n : Nat) (lib : OLib) (m : Model) (td : TypeDef) : (exportTypeDefN n lib m td).Le (exportTypeDefN (n + 1) lib m td) := by
  have hc := oasSchema_le n lib m
  unfold exportTypeDefN
  refine Ran.Le.ite (Ran.Le.bind (oasProps_le (fun t => hc t "") _ _) fun _ => .rfl) ?_
  refine Ran.Le.ite ?_ <| Ran.Le.ite ?_ <| Ran.Le.ite (exportString_le hc td) ?_
  · unfold exportArray
    split
    · exact .rfl
    · exact Ran.Le.bind (hc _ _) fun _ => .rfl
  · unfold exportMap
    split
    · exact .rfl
    · exact Ran.Le.bind (hc _ _) fun _ => .rfl
  · iterate 3 refine Ran.Le.ite .rfl ?_
    refine Ran.Le.ite (Ran.Le.bind (exportString_le hc td) fun _ => .rfl) <| Ran.Le.ite .rfl <|
      Ran.Le.ite (Ran.Le.bind (exportString_le hc td) fun _ => .rfl) .rfl

theorem exportTypes_le (n : Nat) (lib : OLib) (m : Model) (l : List TypeDef) (acc : GoMap OSchema) :
    (exportTypesN n lib m l acc).Le (exportTypesN (n + 1) lib m l acc) := by
  induction l generalizing acc with
  | nil => exact .rfl
  | cons td rest ih => exact Ran.Le.bind (exportTypeDef_le n lib m td) fun _ => ih _

theorem exportHttp_le (n : Nat) (lib : OLib) (m : Model) (l : List HttpDef) (paths : GoMap OPathItem) :
    (exportHttpN n lib m l paths).Le (exportHttpN (n + 1) lib m l paths) := by
  induction l generalizing paths with
  | nil => exact .rfl
  | cons h rest ih =>
    unfold exportHttpN
    dsimp only
    split
    · split
      · exact .rfl
      · exact Ran.Le.bind (exportOp_le (oasSchema_le n lib m) h) fun _ => ih _
    · exact Ran.Le.bind (exportOp_le (oasSchema_le n lib m) h) fun _ => ih _

theorem exportOas_le (n : Nat) (lib : OLib) (m : Model) : (exportOasN n lib m).Le (exportOasN (n + 1) lib m) :=
  Ran.Le.bind (exportTypes_le n lib m _ _) fun _ => Ran.Le.bind (exportHttp_le n lib m _ _) fun _ => .rfl

/-- A run that ended ends in the same way with more steps. -/
theorem exportOas_mono {n : Nat} {lib : OLib} {m : Model} {r : Ran ODoc} (h : exportOasN n lib m = r) (hr : r ≠ .hang) {k : Nat} (hk : n ≤ k) :
    exportOasN k lib m = r := by
  induction hk with
  | refl => exact h
  | step _ ih =>
    rcases exportOas_le _ lib m with h' | h'
    · exact absurd (ih.symm.trans h') hr
    · exact h'.trans ih

end Sadl
