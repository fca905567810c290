import Verif.Lemmas.SmithySafe
/-
The import of a Smithy model makes nothing but what is in it.
-/
namespace Sadl
namespace Smithy
open Sadl.Spec

/-- What one shape adds. -/
structure Adds (name : String) (s : Shape) (acc acc' : Imported) : Prop where
  types : ∀ td ∈ acc'.types, td ∈ acc.types ∨ (s.type ∈ shapeKinds ++ ["boolean"] ∧ td.name = stripNamespace name)
  http : ∀ x ∈ acc'.http, x ∈ acc.http ∨ (s.type = "operation" ∧ HasMethod s ∧ x.name = uncapitalize (stripNamespace name))
  operations : ∀ x ∈ acc'.operations, x ∈ acc.operations ∨ (s.type = "operation" ∧ ¬HasMethod s ∧ x.name = uncapitalize (stripNamespace name))

theorem adds_nothing (name : String) (s : Shape) (acc : Imported) : Adds name s acc acc := ⟨fun _ h => .inl h, fun _ h => .inl h, fun _ h => .inl h⟩

theorem adds_type {name : String} {s : Shape} {td : TypeDef} (acc : Imported) (h1 : s.type ∈ shapeKinds ++ ["boolean"]) (h2 : td.name = stripNamespace name) : Adds name s acc (acc.add td) := by
  refine ⟨fun x h => ?_, fun _ h => .inl h, fun _ h => .inl h⟩
  rcases List.mem_append.1 h with h | h
  · exact .inl h
  · rw [List.mem_singleton.1 h]; exact .inr ⟨h1, h2⟩

theorem importShape_adds {lib : SLib} {suf : Suffixes} {ast : Ast} {io : List String} {name : String} {s : Shape} {acc acc' : Imported}
    (h : importShape lib suf ast io name s acc = .ok acc') (hio : name ∉ io) : Adds name s acc acc' := by
  have add : ∀ {o : Out TypeDef}, (∀ td, o = .ok td → td.name = stripNamespace name) → s.type ∈ shapeKinds ++ ["boolean"] → (do .ok (acc.add (← o)) : Out Imported) = .ok acc' → Adds name s acc acc' := by
    intro o h1 h2 h
    obtain ⟨t, h3, h⟩ := Out.bind_eq_ok.1 h
    cases h
    exact adds_type acc h2 (h1 t h3)
  have same : (Out.ok acc : Out Imported) = .ok acc' → Adds name s acc acc' := by
    intro h
    cases h
    exact adds_nothing _ _ _
  unfold importShape at h
  rw [if_neg hio] at h
  by_cases c1 : s.type ∈ numberShapes
  · rw [if_pos c1] at h
    refine add (fun td e => ?_) ?_ h
    · obtain ⟨a, _, e⟩ := Out.bind_eq_ok.1 e
      cases e; rfl
    · have : ∀ x ∈ numberShapes, x ∈ shapeKinds ++ ["boolean"] := by decide
      exact this _ c1
  rw [if_neg c1] at h
  by_cases c2 : s.type = "string"
  · rw [if_pos c2] at h
    cases hs : importStringShape lib name s with
    | none => rw [hs] at h; exact same h
    | some t =>
      rw [hs] at h; cases h
      refine adds_type acc (by rw [c2]; decide) ?_
      unfold importStringShape importEnum at hs
      dsimp only at hs
      by_cases c : stripNamespace name = "UUID"
      · rw [if_pos c] at hs; cases hs
      · rw [if_neg c, if_neg (by decide)] at hs; cases hs; rfl
  rw [if_neg c2] at h
  by_cases c3 : s.type = "timestamp"
  · rw [if_pos c3] at h
    refine add (fun td e => ?_) (by rw [c3]; decide) h
    obtain ⟨a, _, e⟩ := Out.bind_eq_ok.1 e
    cases e; rfl
  rw [if_neg c3] at h
  by_cases c4 : s.type = "boolean"
  · rw [if_pos c4] at h
    refine add (fun td e => ?_) (by rw [c4]; decide) h
    obtain ⟨a, _, e⟩ := Out.bind_eq_ok.1 e
    cases e; rfl
  rw [if_neg c4] at h
  have list : ∀ u td, importListShape lib name s u = .ok td → td.name = stripNamespace name := by
    intro u td e
    unfold importListShape at e
    cases hm : s.member with
    | none => rw [hm] at e; cases e
    | some mem => rw [hm] at e; cases e; rfl
  by_cases c5 : s.type = "list"
  · rw [if_pos c5] at h; exact add (list _) (by rw [c5]; decide) h
  rw [if_neg c5] at h
  by_cases c6 : s.type = "set"
  · rw [if_pos c6] at h; exact add (list _) (by rw [c6]; decide) h
  rw [if_neg c6] at h
  by_cases c7 : s.type = "map"
  · rw [if_pos c7] at h
    refine add (fun td e => ?_) (by rw [c7]; decide) h
    unfold importMapShape at e
    cases hk : s.key with
    | none => rw [hk] at e; cases e
    | some k => cases hv : s.value with
      | none => rw [hk, hv] at e; cases e
      | some v => rw [hk, hv] at e; cases e; rfl
  rw [if_neg c7] at h
  by_cases c8 : s.type = "structure"
  · rw [if_pos c8] at h
    refine add (fun td e => ?_) (by rw [c8]; decide) h
    obtain ⟨a, _, e⟩ := Out.bind_eq_ok.1 e
    obtain ⟨b, _, e⟩ := Out.bind_eq_ok.1 e
    cases e; rfl
  rw [if_neg c8] at h
  by_cases c9 : s.type = "union"
  · rw [if_pos c9] at h
    refine add (fun td e => ?_) (by rw [c9]; decide) h
    obtain ⟨a, _, e⟩ := Out.bind_eq_ok.1 e
    obtain ⟨b, _, e⟩ := Out.bind_eq_ok.1 e
    cases e; rfl
  rw [if_neg c9] at h
  by_cases c10 : s.type = "blob"
  · rw [if_pos c10] at h; cases h; exact adds_type acc (by rw [c10]; decide) rfl
  rw [if_neg c10] at h
  by_cases c11 : s.type = "enum"
  · rw [if_pos c11] at h
    refine add (fun td e => ?_) (by rw [c11]; decide) h
    obtain ⟨a, _, e⟩ := Out.bind_eq_ok.1 e
    obtain ⟨b, _, e⟩ := Out.bind_eq_ok.1 e
    cases e; rfl
  rw [if_neg c11] at h
  by_cases c12 : s.type = "service"
  · rw [if_pos c12] at h; exact same h
  rw [if_neg c12] at h
  by_cases c13 : s.type = "operation"
  · rw [if_pos c13] at h
    unfold importOperationShape at h
    dsimp only at h
    rw [trait_getKey, trait_getKey] at h
    by_cases c : HasMethod s
    · rw [if_neg ((hasMethod_iff s).1 c)] at h
      obtain ⟨o, h1, h⟩ := Out.bind_eq_ok.1 h
      cases h
      refine ⟨fun _ h => .inl h, fun x hx => ?_, fun _ h => .inl h⟩
      rcases List.mem_append.1 hx with hx | hx
      · exact .inl hx
      · rw [List.mem_singleton.1 hx]
        refine .inr ⟨c13, c, ?_⟩
        unfold importAction at h1
        obtain ⟨a, _, h1⟩ := Out.bind_eq_ok.1 h1
        dsimp only at h1
        obtain ⟨b, _, h1⟩ := Out.bind_eq_ok.1 h1
        obtain ⟨d, _, h1⟩ := Out.bind_eq_ok.1 h1
        cases h1; rfl
    · rw [if_pos (Decidable.not_not.1 (mt (hasMethod_iff s).2 c))] at h
      obtain ⟨o, h1, h⟩ := Out.bind_eq_ok.1 h
      cases h
      refine ⟨fun _ h => .inl h, fun _ h => .inl h, fun x hx => ?_⟩
      rcases List.mem_append.1 hx with hx | hx
      · exact .inl hx
      · rw [List.mem_singleton.1 hx]
        refine .inr ⟨c13, c, ?_⟩
        unfold importPlainOperation at h1
        obtain ⟨a, _, h1⟩ := Out.bind_eq_ok.1 h1
        obtain ⟨b, _, h1⟩ := Out.bind_eq_ok.1 h1
        obtain ⟨d, _, h1⟩ := Out.bind_eq_ok.1 h1
        cases h1; rfl
  rw [if_neg c13] at h
  by_cases c14 : s.type = "resource"
  · rw [if_pos c14] at h; exact same h
  rw [if_neg c14] at h
  cases h

/-- What the shapes add. -/
theorem importShapes_adds {lib : SLib} {suf : Suffixes} {ast : Ast} {io : List String} {service : String} {shapes : GoMap Shape} {acc acc' : Imported}
    (h : importShapes lib suf ast io service shapes acc = .ok acc') :
    (∀ td ∈ acc'.types, td ∈ acc.types ∨ ∃ name s, (name, s) ∈ shapes ∧ name ∉ io ∧ s.type ∈ shapeKinds ++ ["boolean"] ∧ td.name = stripNamespace name) ∧
    (∀ x ∈ acc'.http, x ∈ acc.http ∨ ∃ name s, (name, s) ∈ shapes ∧ name ∉ io ∧ s.type = "operation" ∧ HasMethod s ∧ x.name = uncapitalize (stripNamespace name)) ∧
    (∀ x ∈ acc'.operations, x ∈ acc.operations ∨ ∃ name s, (name, s) ∈ shapes ∧ name ∉ io ∧ s.type = "operation" ∧ ¬HasMethod s ∧ x.name = uncapitalize (stripNamespace name)) := by
  induction shapes generalizing acc with
  | nil => cases h; exact ⟨fun _ h => .inl h, fun _ h => .inl h, fun _ h => .inl h⟩
  | cons ks rest ih =>
    obtain ⟨k, s⟩ := ks
    unfold importShapes at h
    by_cases c : s.type ≠ "service" ∨ k = service
    · rw [if_pos c] at h
      obtain ⟨a, h1, h⟩ := Out.bind_eq_ok.1 h
      obtain ⟨i1, i2, i3⟩ := ih h
      by_cases hio : k ∈ io
      · unfold importShape at h1
        rw [if_pos hio] at h1
        cases h1
        refine ⟨fun x hx => ?_, fun x hx => ?_, fun x hx => ?_⟩
        · exact (i1 x hx).imp_right fun ⟨n, s, hm, h⟩ => ⟨n, s, .tail _ hm, h⟩
        · exact (i2 x hx).imp_right fun ⟨n, s, hm, h⟩ => ⟨n, s, .tail _ hm, h⟩
        · exact (i3 x hx).imp_right fun ⟨n, s, hm, h⟩ => ⟨n, s, .tail _ hm, h⟩
      · have ha := importShape_adds h1 hio
        refine ⟨fun x hx => ?_, fun x hx => ?_, fun x hx => ?_⟩
        · rcases i1 x hx with hx | ⟨n, s, hm, h⟩
          · exact (ha.types x hx).imp_right fun h => ⟨k, s, .head _, hio, h⟩
          · exact .inr ⟨n, s, .tail _ hm, h⟩
        · rcases i2 x hx with hx | ⟨n, s, hm, h⟩
          · exact (ha.http x hx).imp_right fun h => ⟨k, s, .head _, hio, h⟩
          · exact .inr ⟨n, s, .tail _ hm, h⟩
        · rcases i3 x hx with hx | ⟨n, s, hm, h⟩
          · exact (ha.operations x hx).imp_right fun h => ⟨k, s, .head _, hio, h⟩
          · exact .inr ⟨n, s, .tail _ hm, h⟩
    · rw [if_neg c] at h
      obtain ⟨i1, i2, i3⟩ := ih h
      refine ⟨fun x hx => ?_, fun x hx => ?_, fun x hx => ?_⟩
      · exact (i1 x hx).imp_right fun ⟨n, s, hm, h⟩ => ⟨n, s, .tail _ hm, h⟩
      · exact (i2 x hx).imp_right fun ⟨n, s, hm, h⟩ => ⟨n, s, .tail _ hm, h⟩
      · exact (i3 x hx).imp_right fun ⟨n, s, hm, h⟩ => ⟨n, s, .tail _ hm, h⟩

end Smithy
end Sadl
