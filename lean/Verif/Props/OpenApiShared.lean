import Verif.Lemmas.OpenApiShared
/-
C108: the examples of a model that is imported are those of its document.
-/
namespace Sadl.Props
open Sadl Sadl.Spec Sadl.Shared

/-- The calls of `ToSadl` on documents, before any of them has begun; an earlier history may have left anything in the variable. -/
def conversions (docs : Nat → ODoc) (left : List ExampleDef) : State ExampleDef := { examples := left, calls := fun i => .start (docExamples (docs i)) }

/-- Whatever other calls have done before and do after, finished or not: if no other call makes a step while call `i` is running, and it
finishes, it gets the examples that the model of its document has. -/
theorem C108_alone_partial (docs : Nat → ODoc) (left : List ExampleDef) (i : Nat) (before during after : List (Nat × Bool))
    (hb : ∀ x ∈ before, x.1 ≠ i) (hd : ∀ x ∈ during, x.1 = i) (r : List ExampleDef)
    (hr : ((conversions docs left).run (before ++ during)).calls i = .done r) :
    ((conversions docs left).run (before ++ during ++ after)).calls i = .done r ∧
    ∀ name m, toSadl (docs i) name = .ok m → r = m.schema.examples := by
  refine ⟨by rw [run_append]; exact run_done after _ i r hr, fun name m hm => ?_⟩
  have h0 : Shared.Inv (docExamples (docs i)) ((conversions docs left).run before) i := by
    unfold Shared.Inv
    rw [run_other i before hb]
    rfl
  have h1 := run_inv _ i during hd _ h0
  rw [← run_append] at h1
  unfold Shared.Inv at h1
  rw [hr] at h1
  rw [h1, toSadl_examples _ name m hm]

/-- One after the other: each call, of whatever length and whether it fails or not, has ended before the next one begins.  Then every call that
finishes gets the examples of its own document. -/
theorem C108_sequential_partial (docs : Nat → ODoc) (left : List ExampleDef) (blocks : List (Nat × List Bool)) (hn : (blocks.map (·.1)).Nodup)
    (i : Nat) (r : List ExampleDef)
    (hr : ((conversions docs left).run (blocks.flatMap fun b => b.2.map fun f => (b.1, f))).calls i = .done r)
    (name : String) (m : Model) (hm : toSadl (docs i) name = .ok m) : r = m.schema.examples := by
  by_cases hi : i ∈ blocks.map (·.1)
  · obtain ⟨b, hb, rfl⟩ := List.mem_map.1 hi
    obtain ⟨pre, post, rfl⟩ := List.append_of_mem hb
    simp only [List.map_append, List.map_cons, List.nodup_append, List.nodup_cons, List.mem_map, List.mem_cons] at hn
    have hpre : ∀ x ∈ pre.flatMap (fun b => b.2.map fun f => (b.1, f)), x.1 ≠ b.1 := by
      intro x hx
      obtain ⟨c, hc, hx⟩ := List.mem_flatMap.1 hx
      obtain ⟨f, _, rfl⟩ := List.mem_map.1 hx
      exact hn.2.2 _ ⟨c, hc, rfl⟩ _ (.inl rfl)
    have hpost : ∀ x ∈ post.flatMap (fun b => b.2.map fun f => (b.1, f)), x.1 ≠ b.1 := by
      intro x hx
      obtain ⟨c, hc, hx⟩ := List.mem_flatMap.1 hx
      obtain ⟨f, _, rfl⟩ := List.mem_map.1 hx
      exact fun e => hn.2.1.1 ⟨c, hc, e⟩
    have hmid : ∀ x ∈ b.2.map (fun f => (b.1, f)), x.1 = b.1 := by
      intro x hx
      obtain ⟨f, _, rfl⟩ := List.mem_map.1 hx
      rfl
    rw [List.flatMap_append, List.flatMap_cons, ← List.append_assoc, run_append, run_other _ _ hpost] at hr
    exact (C108_alone_partial docs left b.1 _ _ [] hpre hmid r hr).2 name m hm
  · rw [run_other] at hr
    · cases hr
    · intro x hx
      obtain ⟨c, hc, hx⟩ := List.mem_flatMap.1 hx
      obtain ⟨f, _, rfl⟩ := List.mem_map.1 hx
      exact fun e => hi (List.mem_map.2 ⟨c, hc, e⟩)

/-- A call that is alone and does not fail finishes. -/
theorem C108_finishes (docs : Nat → ODoc) (left : List ExampleDef) (i : Nat) (before : List (Nat × Bool)) (hb : ∀ x ∈ before, x.1 ≠ i) :
    ∃ n, ((conversions docs left).run (before ++ List.replicate n (i, false))).calls i = .done (docExamples (docs i)) := by
  have key : ∀ (l : List ExampleDef) (s : State ExampleDef), s.calls i = .running l →
      ∃ n, (s.run (List.replicate n (i, false))).calls i = .done (s.examples ++ l) := by
    intro l
    induction l with
    | nil =>
      intro s hs
      exact ⟨1, by simp [State.run, State.step, hs, State.set]⟩
    | cons x l ih =>
      intro s hs
      have h2 : ((s.step i false).step i false).calls i = .running l := by simp [State.step, hs, State.set]
      obtain ⟨n, hn⟩ := ih _ h2
      refine ⟨n + 2, ?_⟩
      have e : ((s.step i false).step i false).examples = s.examples ++ [x] := by simp [State.step, hs, State.set]
      rw [e] at hn
      simpa [List.replicate_succ, State.run] using hn
  have h0 : ((conversions docs left).run before).calls i = .start (docExamples (docs i)) := by
    rw [run_other i before hb]; rfl
  have h1 : (((conversions docs left).run before).step i false).calls i = .running (docExamples (docs i)) := by simp [State.step, h0, State.set]
  obtain ⟨n, hn⟩ := key _ _ h1
  refine ⟨n + 1, ?_⟩
  have e : (((conversions docs left).run before).step i false).examples = [] := by simp [State.step, h0, State.set]
  rw [e] at hn
  rw [run_append]
  simpa [List.replicate_succ, State.run] using hn

/-- Two documents, of which each has a type with an example. -/
def exampleDocs (i : Nat) : ODoc :=
  if i = 0 then { openapi := "3.0.0", title := "a", version := "1", schemas := [("A", { type := "string", «example» := .str "x" })] }
  else { openapi := "3.0.0", title := "b", version := "1", schemas := [("B", { type := "string", «example» := .str "y" })] }

/-- The types for which a call that has finished has examples. -/
def targets (s : State ExampleDef) (i : Nat) : Option (List String) :=
  match s.calls i with
  | .done r => some (r.map (·.target))
  | _ => none

/-- The models of the two documents have an example each. -/
theorem C108_example (i : Nat) (h : i < 2) : ∃ m, toSadl (exampleDocs i) "x" = .ok m ∧ m.schema.examples.map (·.target) = [if i = 0 then "A" else "B"] := by
  have : ∀ i : Nat, i < 2 →
      (match toSadl (exampleDocs i) "x" with | .ok m => m.schema.examples.map (·.target) == [if i = 0 then "A" else "B"] | _ => false) = true := by
    intro i h
    match i, h with
    | 0, _ => decide +kernel
    | 1, _ => decide +kernel
  have hi := this i h
  split at hi
  · next m hm => exact ⟨m, hm, by simpa using hi⟩
  · cases hi

/-- Alone, call 1 gets the example of its document, although call 0 was given up half way. -/
theorem C108_example_after_failure :
    targets ((conversions exampleDocs []).run ([(0, false), (0, false), (0, false), (0, true)] ++ List.replicate 4 (1, false))) 1 = some ["B"] := by
  decide +kernel

/-- At the same time: call 0 gets the example of the other document as well as its own; -/
theorem C108_refuted_foreign : ∃ schedule, targets ((conversions exampleDocs []).run schedule) 0 = some ["A", "B"] :=
  ⟨[(0, false), (1, false), (0, false), (0, false), (1, false), (1, false), (0, false)], by decide +kernel⟩

/-- or loses its own. -/
theorem C108_refuted_lost : ∃ schedule, targets ((conversions exampleDocs []).run schedule) 0 = some [] :=
  ⟨[(0, false), (0, false), (0, false), (1, false), (0, false)], by decide +kernel⟩

/-- Both calls may end without their own example. -/
theorem C108_refuted_exchanged : ∃ schedule, targets ((conversions exampleDocs []).run schedule) 0 = some ["B"] ∧
    targets ((conversions exampleDocs []).run schedule) 1 = some ["B"] :=
  ⟨[(0, false), (1, false), (0, false), (1, false), (0, false), (1, false), (0, false), (1, false)], by decide +kernel⟩

end Sadl.Props
