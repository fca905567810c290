import Verif.Lemmas.SmithyExport
/-
Lemmas about the Smithy export: why it fails.
-/
namespace Sadl

theorem Out.bind_eq_err {α β : Type} {x : Out α} {f : α → Out β} {e : String} :
    (x >>= f) = .err e ↔ x = .err e ∨ ∃ a, x = .ok a ∧ f a = .err e := by
  cases x <;> simp

theorem Out.bind_eq_panic {α β : Type} {x : Out α} {f : α → Out β} {e : String} :
    (x >>= f) = .panic e ↔ x = .panic e ∨ ∃ a, x = .ok a ∧ f a = .panic e := by
  cases x <;> simp

open Smithy Spec
namespace Smithy

/-- The message for an exception whose type has no shape. -/
def noShape (t : String) : String := "Cannot find shape for error declaration type " ++ t

theorem actionErrors_err {ns : String} {xs : List HttpExceptionSpec} {shapes : GoMap Shape} {e : String}
    (h : actionErrors ns xs shapes = .err e) : ∃ x ∈ xs, ns ++ "#" ++ x.type ∉ shapes.map Prod.fst ∧ e = noShape x.type := by
  induction xs generalizing shapes with
  | nil => simp [actionErrors] at h
  | cons x rest ih =>
    simp only [actionErrors] at h
    split at h
    · rename_i s hs
      obtain ⟨y, h1, h2, h3⟩ := ih h
      refine ⟨y, by simp [h1], fun hc => h2 ?_, h3⟩
      rw [mem_keys_mset]
      exact .inr hc
    · rename_i hs
      refine ⟨x, by simp, (mget_none_iff _ _).1 hs, ?_⟩
      cases h; rfl

theorem exportAction_err {suf : Suffixes} {ns base : String} {h : HttpDef} {shapes : GoMap Shape} {e : String}
    (hr : exportAction suf ns base h shapes = .err e) :
    ∃ x ∈ h.exceptions, ns ++ "#" ++ x.type ∉ shapes.map Prod.fst ∧ e = noShape x.type := by
  unfold exportAction at hr
  rw [Out.bind_eq_err] at hr
  rcases hr with hr | ⟨shape, _, hr⟩
  · exact absurd hr (actionShape_not_err _ _ _)
  · cases he : h.expected with
    | none => simp [he] at hr
    | some ex =>
      simp only [he] at hr
      have mono : ∀ (sh : GoMap Shape) (x : HttpExceptionSpec), x ∈ h.exceptions → (∀ k, k ∈ shapes.map Prod.fst → k ∈ sh.map Prod.fst) →
          (ns ++ "#" ++ x.type ∉ sh.map Prod.fst) → ns ++ "#" ++ x.type ∉ shapes.map Prod.fst := fun sh x _ hm hx hc => hx (hm _ hc)
      by_cases hi : h.inputs = [] <;> by_cases h2 : ex.outputs = [] <;>
        simp only [hi, h2, ne_eq, not_true, not_false_eq_true, if_true, if_false, Out.bind_eq_err, reduceCtorEq, and_false,
          exists_false, or_false] at hr <;>
        obtain ⟨x, h3, h4, h5⟩ := actionErrors_err hr <;> refine ⟨x, h3, mono _ x h3 ?_ h4, h5⟩ <;> intro k hk <;>
        simp only [mem_keys_mset, hk, or_true]

theorem exportAction_mono {suf : Suffixes} {ns base : String} {h : HttpDef} {shapes r : GoMap Shape}
    (hr : exportAction suf ns base h shapes = .ok r) {n : String} (hn : ns ++ "#" ++ n ∈ shapes.map Prod.fst) :
    ns ++ "#" ++ n ∈ r.map Prod.fst := (exportAction_keys hr n).2 (.inr hn)

theorem exportActions_err {suf : Suffixes} {ns base : String} {hs : List HttpDef} {shapes : GoMap Shape} {e : String}
    (hr : exportActions suf ns base hs shapes = .err e) :
    ∃ h ∈ hs, ∃ x ∈ h.exceptions, ns ++ "#" ++ x.type ∉ shapes.map Prod.fst ∧ e = noShape x.type := by
  induction hs generalizing shapes with
  | nil => simp [exportActions] at hr
  | cons h rest ih =>
    simp only [exportActions, Out.bind_eq_err] at hr
    rcases hr with hr | ⟨sh, h1, hr⟩
    · obtain ⟨x, h2⟩ := exportAction_err hr
      exact ⟨h, by simp, x, h2⟩
    · obtain ⟨h', h2, x, h3, h4, h5⟩ := ih hr
      exact ⟨h', by simp [h2], x, h3, fun hc => h4 (exportAction_mono h1 hc), h5⟩

theorem requestExamples_not_err (rq : String) (exs : List ExampleDef) (acc : GoMap (GoMap Value)) (e : String) :
    requestExamples rq exs acc ≠ .err e := by
  induction exs generalizing acc with
  | nil => simp [requestExamples]
  | cons ex rest ih =>
    simp only [requestExamples]
    split
    · split
      · exact ih _
      · simp
    · exact ih _

theorem responseExamples_not_err (rq rs : String) (xs : List HttpExceptionSpec) (exs : List ExampleDef) (acc : GoMap (GoMap Value))
    (e : String) : responseExamples rq rs xs exs acc ≠ .err e := by
  induction exs generalizing acc with
  | nil => simp [responseExamples]
  | cons ex rest ih =>
    simp only [responseExamples]
    split
    · exact ih _
    · split
      · exact ih _
      · split
        · split
          · exact ih _
          · simp
        · split
          · split
            · exact ih _
            · simp
          · exact ih _

theorem sadlExamples_not_err (order : GoMap (GoMap Value) → GoMap (GoMap Value)) (s : Schema) (h : HttpDef) (e : String) :
    sadlExamplesForAction order s h ≠ .err e := by
  unfold sadlExamplesForAction
  simp [Out.bind_eq_err, requestExamples_not_err, responseExamples_not_err]

theorem examplesFromSadl_not_err (order : GoMap (GoMap Value) → GoMap (GoMap Value)) (ns : String) (s : Schema) (hs : List HttpDef)
    (shapes : GoMap Shape) (e : String) : examplesFromSADL order ns s hs shapes ≠ .err e := by
  induction hs generalizing shapes with
  | nil => simp [examplesFromSADL]
  | cons h rest ih => simp [examplesFromSADL, Out.bind_eq_err, sadlExamples_not_err, ih]

/-- The export returns an error only if an exception is not a type of the schema. -/
theorem fromSadl_err {order : GoMap (GoMap Value) → GoMap (GoMap Value)} {suf : Suffixes} {m : Model} {ns e : String}
    (hr : fromSadl order suf m ns = .err e) :
    ∃ h ∈ m.schema.http, ∃ x ∈ h.exceptions, ¬ Named m.schema x.type ∧ e = noShape x.type := by
  unfold fromSadl at hr
  simp only [Out.bind_eq_err, reduceCtorEq, and_false, exists_false, or_false] at hr
  have ht : ∀ td ∈ m.schema.types, td.ts.type ∈ SmithyBases := by
    by_contra hc
    rw [defineShapes_panic _ _ _ _ hc] at hr
    simp at hr
  rw [defineShapes_ok _ _ _ _ ht] at hr
  rcases hr with hr | ⟨sh, h1, hr | ⟨sh2, _, hr⟩⟩
  · cases hr
  · cases h1
    obtain ⟨h, h2, x, h3, h4, h5⟩ := exportActions_err hr
    refine ⟨h, h2, x, h3, fun hn => h4 ?_, h5⟩
    rw [typeShapes_keys]
    obtain ⟨td, h6, h7⟩ := hn
    exact .inl ⟨td, h6, by rw [h7]⟩
  · unfold withExamples at hr
    split at hr
    · exact absurd hr (examplesFromSadl_not_err _ _ _ _ _ _)
    · cases hr

theorem exportAction_panic {suf : Suffixes} {ns base : String} {h : HttpDef} {shapes : GoMap Shape} {e : String}
    (hr : exportAction suf ns base h shapes = .panic e) : h.expected = none ∨ ¬ PaginatedOk h := by
  unfold exportAction at hr
  rw [Out.bind_eq_panic] at hr
  rcases hr with hr | ⟨shape, _, hr⟩
  · refine .inr fun hp => ?_
    obtain ⟨s, hs⟩ := (actionShape_ok base h).2 hp
    rw [hs] at hr
    cases hr
  · cases he : h.expected with
    | none => exact .inl rfl
    | some ex =>
      exfalso
      simp only [he] at hr
      by_cases hi : h.inputs = [] <;> by_cases h2 : ex.outputs = [] <;>
        simp only [hi, h2, ne_eq, not_true, not_false_eq_true, if_true, if_false, Out.bind_eq_panic, reduceCtorEq, and_false,
          exists_false, or_false] at hr <;> exact actionErrors_not_panic _ _ _ _ hr

theorem exportActions_panic {suf : Suffixes} {ns base : String} {hs : List HttpDef} {shapes : GoMap Shape} {e : String}
    (hr : exportActions suf ns base hs shapes = .panic e) : ∃ h ∈ hs, h.expected = none ∨ ¬ PaginatedOk h := by
  induction hs generalizing shapes with
  | nil => simp [exportActions] at hr
  | cons h rest ih =>
    simp only [exportActions, Out.bind_eq_panic] at hr
    rcases hr with hr | ⟨sh, _, hr⟩
    · exact ⟨h, by simp, exportAction_panic hr⟩
    · obtain ⟨h', h2, h3⟩ := ih hr
      exact ⟨h', by simp [h2], h3⟩

/-- The export panics only for the other reasons. -/
theorem fromSadl_panic {order : GoMap (GoMap Value) → GoMap (GoMap Value)} {suf : Suffixes} {m : Model} {ns e : String}
    (hr : fromSadl order suf m ns = .panic e) :
    (∃ td ∈ m.schema.types, td.ts.type ∉ SmithyBases) ∨ (∃ h ∈ m.schema.http, h.expected = none) ∨
    (∃ h ∈ m.schema.http, ∃ v, mget h.annotations "x_paginated" = some v ∧ ∃ item ∈ splitAll ',' v.toList, '=' ∉ item) ∨
    ∃ ex ∈ m.schema.examples, ¬ IsObject ex.example := by
  by_cases ht : ∀ td ∈ m.schema.types, td.ts.type ∈ SmithyBases
  · right
    unfold fromSadl at hr
    simp only [Out.bind_eq_panic, reduceCtorEq, and_false, exists_false, or_false, defineShapes_ok _ _ _ _ ht, false_or,
      Out.ok.injEq, exists_eq_left'] at hr
    rcases hr with hr | ⟨sh, h1, hr⟩
    · obtain ⟨h, h2, h3 | h3⟩ := exportActions_panic hr
      · exact .inl ⟨h, h2, h3⟩
      · refine .inr (.inl ⟨h, h2, ?_⟩)
        unfold PaginatedOk at h3
        push_neg at h3
        exact h3
    · right; right
      by_contra hc
      push_neg at hc
      unfold withExamples at hr
      split at hr
      · have := (examplesFromSadl_ok order ns m.schema m.schema.http
          (if m.schema.http.map (fun h => ns ++ "#" ++ actionName h) ++ m.schema.operations.map (fun od => ns ++ "#" ++ capitalize od.name) ≠ [] then
            mset (exportOperations suf ns m.schema.operations sh) (ns ++ "#" ++ capitalize m.schema.name)
              (serviceShape m.schema (m.schema.http.map (fun h => ns ++ "#" ++ actionName h) ++
                m.schema.operations.map (fun od => ns ++ "#" ++ capitalize od.name)))
           else exportOperations suf ns m.schema.operations sh)).2
          fun h _ => (sadlExamples_ok order m.schema h).2 ⟨fun ex he _ => hc ex he, fun ex he _ _ => hc ex he⟩
        obtain ⟨r, hr'⟩ := this
        rw [hr'] at hr
        cases hr
      · cases hr
  · left
    push_neg at ht
    exact ht

end Smithy
end Sadl
