import Verif.Spec.SmithyShown
import Verif.Props.SmithyExport
/-
C124: the examples of the operations of an exported Smithy model.
-/
namespace Sadl.Props
open Sadl Sadl.Spec Sadl.Smithy

theorem lastExample_cons (target name : String) (ex : ExampleDef) (l : List ExampleDef) : lastExample target name (ex :: l) =
    if ex.target = target ∧ ex.name = name then some ((lastExample target name l).getD ex) else lastExample target name l := by
  unfold lastExample
  by_cases h : ex.target = target ∧ ex.name = name
  · rw [if_pos h, List.filter_cons_of_pos (by simp [h.1, h.2]), List.getLast?_cons]
  · rw [if_neg h, List.filter_cons_of_neg (by simpa using h)]

theorem lastExample_isSome {target : String} {l : List ExampleDef} {ex : ExampleDef} (h : ex ∈ l) (ht : ex.target = target) :
    ∃ ex', lastExample target ex.name l = some ex' := by
  unfold lastExample
  cases hl : (l.filter fun e => e.target == target && e.name == ex.name).getLast? with
  | some e => exact ⟨e, rfl⟩
  | none =>
    rw [List.getLast?_eq_none_iff] at hl
    have : ex ∈ l.filter fun e => e.target == target && e.name == ex.name := List.mem_filter.2 ⟨h, by simp [ht]⟩
    rw [hl] at this
    cases this

/-- The entry of a request. -/
def requestEntry (ex : ExampleDef) : GoMap Value :=
  [("input", ex.example)] ++ if ex.comment ≠ "" then [("documentation", .str ex.comment)] else []

theorem requestExamples_at {rt : String} : ∀ {l : List ExampleDef} {acc acc' : GoMap (GoMap Value)}, requestExamples rt l acc = .ok acc' →
    (acc.Distinct → acc'.Distinct) ∧ ∀ n, mget acc' n = match lastExample rt n l with
      | some ex => some (requestEntry ex)
      | none => mget acc n
  | [], acc, acc', h => by rw [requestExamples] at h; cases h; exact ⟨id, fun n => rfl⟩
  | ex :: rest, acc, acc', h => by
    rw [requestExamples] at h
    by_cases ht : ex.target = rt
    · rw [if_pos ht] at h
      split at h
      · next kvs he =>
        replace h : requestExamples rt rest (mset acc ex.name (requestEntry ex)) = .ok acc' := h
        have ih := requestExamples_at h
        refine ⟨fun hd => ih.1 (distinct_mset hd _ _), fun n => ?_⟩
        rw [ih.2 n, lastExample_cons]
        by_cases hn : ex.name = n
        · rw [if_pos ⟨ht, hn⟩]
          cases lastExample rt n rest with
          | some e => rfl
          | none => subst hn; exact mget_mset_same _ _ _
        · rw [if_neg (fun h => hn h.2)]
          cases lastExample rt n rest with
          | some e => rfl
          | none => exact mget_mset_other _ _ _ _ (fun h => hn h.symm)
      · cases h
    · rw [if_neg ht] at h
      have ih := requestExamples_at h
      refine ⟨ih.1, fun n => ?_⟩
      rw [ih.2 n, lastExample_cons, if_neg (fun h => ht h.1)]

theorem responseExamples_at {rq rs : String} (hne : rq ≠ rs) {excs : List HttpExceptionSpec} : ∀ {l : List ExampleDef} {acc acc' : GoMap (GoMap Value)},
    responseExamples rq rs excs l acc = .ok acc' →
    (acc.Distinct → acc'.Distinct) ∧ ∀ n, (mget acc n = none → mget acc' n = none) ∧
      ∀ d, mget acc n = some d → ∃ d', mget acc' n = some d' ∧ (∀ k, k ≠ "output" → k ≠ "error" → mget d' k = mget d k) ∧
        mget d' "output" = match lastExample rs n l with
          | some ex => some ex.example
          | none => mget d "output"
  | [], acc, acc', h => by rw [responseExamples] at h; cases h; exact ⟨id, fun n => ⟨id, fun d hd => ⟨d, hd, fun _ _ _ => rfl, rfl⟩⟩⟩
  | ex :: rest, acc, acc', h => by
    have skip : responseExamples rq rs excs rest acc = .ok acc' →
        (∀ n d, mget acc n = some d → ¬ (ex.target = rs ∧ ex.name = n)) →
        (acc.Distinct → acc'.Distinct) ∧ ∀ n, (mget acc n = none → mget acc' n = none) ∧
          ∀ d, mget acc n = some d → ∃ d', mget acc' n = some d' ∧ (∀ k, k ≠ "output" → k ≠ "error" → mget d' k = mget d k) ∧
            mget d' "output" = match lastExample rs n (ex :: rest) with
              | some ex => some ex.example
              | none => mget d "output" := by
      intro h hs
      have ih := responseExamples_at hne h
      refine ⟨ih.1, fun n => ⟨(ih.2 n).1, fun d hd => ?_⟩⟩
      obtain ⟨d', h1, h2, h3⟩ := (ih.2 n).2 d hd
      refine ⟨d', h1, h2, ?_⟩
      rw [h3, lastExample_cons, if_neg (hs n d hd)]
    rw [responseExamples] at h
    by_cases ht : ex.target = rq
    · rw [if_pos ht] at h
      exact skip h (fun n d _ hc => hne (ht.symm.trans hc.1))
    · rw [if_neg ht] at h
      split at h
      · next hn => exact skip h (fun n d hd hc => by rw [← hc.2, hn] at hd; cases hd)
      · next d0 hd0 =>
        split_ifs at h with hr hx
        · split at h
          · next kvs he =>
            have ih := responseExamples_at hne h
            refine ⟨fun hd => ih.1 (distinct_mset hd _ _), fun n => ⟨fun hn => ?_, fun d hd => ?_⟩⟩
            · refine (ih.2 n).1 ?_
              rw [mget_mset_other _ _ _ _ (fun e => by rw [e, hd0] at hn; cases hn)]
              exact hn
            · by_cases hn : ex.name = n
              · subst hn
                rw [hd0] at hd
                cases hd
                obtain ⟨d', h1, h2, h3⟩ := (ih.2 ex.name).2 _ (mget_mset_same _ _ _)
                refine ⟨d', h1, fun k k1 k2 => ?_, ?_⟩
                · rw [h2 k k1 k2, mget_mset_other _ _ _ _ k1]
                · rw [h3, lastExample_cons, if_pos ⟨hr, rfl⟩]
                  cases lastExample rs ex.name rest with
                  | some e => rfl
                  | none => exact mget_mset_same _ _ _
              · obtain ⟨d', h1, h2, h3⟩ := (ih.2 n).2 d (by rw [mget_mset_other _ _ _ _ (fun h => hn h.symm)]; exact hd)
                exact ⟨d', h1, h2, by rw [h3, lastExample_cons, if_neg (fun h => hn h.2)]⟩
          · cases h
        · split at h
          · next kvs he =>
            have ih := responseExamples_at hne h
            refine ⟨fun hd => ih.1 (distinct_mset hd _ _), fun n => ⟨fun hn => ?_, fun d hd => ?_⟩⟩
            · refine (ih.2 n).1 ?_
              rw [mget_mset_other _ _ _ _ (fun e => by rw [e, hd0] at hn; cases hn)]
              exact hn
            · by_cases hn : ex.name = n
              · subst hn
                rw [hd0] at hd
                cases hd
                obtain ⟨d', h1, h2, h3⟩ := (ih.2 ex.name).2 _ (mget_mset_same _ _ _)
                refine ⟨d', h1, fun k k1 k2 => ?_, ?_⟩
                · rw [h2 k k1 k2, mget_mset_other _ _ _ _ k2]
                · rw [h3, lastExample_cons, if_neg (fun h => hr h.1)]
                  cases lastExample rs ex.name rest with
                  | some e => rfl
                  | none => exact mget_mset_other _ _ _ _ (by decide)
              · obtain ⟨d', h1, h2, h3⟩ := (ih.2 n).2 d (by rw [mget_mset_other _ _ _ _ (fun h => hn h.symm)]; exact hd)
                exact ⟨d', h1, h2, by rw [h3, lastExample_cons, if_neg (fun h => hn h.2)]⟩
          · cases h
        · exact skip h (fun n d _ hc => hr hc.1)

theorem request_ne_response (op : String) : op ++ "Request" ≠ op ++ "Response" := by
  intro h
  have := congrArg String.toList h
  rw [String.toList_append, String.toList_append] at this
  exact absurd (List.append_cancel_left this) (by decide)

theorem actionExamples_shown {order : GoMap (GoMap Value) → GoMap (GoMap Value)} (hord : ∀ l, (order l).Perm l) {s : Schema} {a : HttpDef} {l : List Value}
    (h : sadlExamplesForAction order s a = .ok l) :
    (∀ v ∈ l, ∃ o t, v = .obj o ∧ PairShown s (capitalize a.name) o t) ∧
    ∀ ex ∈ s.examples, ex.target = capitalize a.name ++ "Request" → ∃ o, Value.obj o ∈ l ∧ PairShown s (capitalize a.name) o ex.name := by
  unfold sadlExamplesForAction at h
  obtain ⟨n1, h1, h⟩ := Out.bind_eq_ok.1 h
  obtain ⟨n2, h2, h⟩ := Out.bind_eq_ok.1 h
  cases h
  have r1 := requestExamples_at h1
  have r2 := responseExamples_at (request_ne_response _) h2
  have hd : n2.Distinct := r2.1 (r1.1 (by simp [GoMap.Distinct]))
  have key : ∀ t ex, lastExample (capitalize a.name ++ "Request") t s.examples = some ex → ∃ d, mget n2 t = some d ∧
      PairShown s (capitalize a.name) (mset d "title" (.str t)) t := by
    intro t ex hl
    have e1 := r1.2 t
    rw [hl] at e1
    obtain ⟨d, d1, d2, d3⟩ := (r2.2 t).2 _ e1
    refine ⟨d, d1, mget_mset_same _ _ _, ⟨ex, hl, ?_, ?_⟩, ?_⟩
    · rw [mget_mset_other _ _ _ _ (by decide), d2 _ (by decide) (by decide)]; rfl
    · rw [mget_mset_other _ _ _ _ (by decide), d2 _ (by decide) (by decide)]
      unfold requestEntry
      by_cases hc : ex.comment = "" <;> simp [hc, mget]
    · rw [mget_mset_other _ _ _ _ (by decide), d3]
      cases lastExample (capitalize a.name ++ "Response") t s.examples with
      | some e => rfl
      | none =>
        unfold requestEntry
        by_cases hc : ex.comment = "" <;> simp [hc, mget]
  constructor
  · intro v hv
    obtain ⟨⟨t, d⟩, hm, rfl⟩ := List.mem_map.1 hv
    have hg := mget_of_mem hd ((hord n2).mem_iff.1 hm)
    cases hl : lastExample (capitalize a.name ++ "Request") t s.examples with
    | none =>
      have e1 := r1.2 t
      rw [hl] at e1
      rw [(r2.2 t).1 e1] at hg
      cases hg
    | some ex =>
      obtain ⟨d', k1, k2⟩ := key t ex hl
      rw [hg] at k1
      cases k1
      exact ⟨_, t, rfl, k2⟩
  · intro ex hx ht
    obtain ⟨ex', hl⟩ := lastExample_isSome hx ht
    obtain ⟨d, k1, k2⟩ := key _ _ hl
    exact ⟨_, List.mem_map.2 ⟨(ex.name, d), (hord n2).mem_iff.2 (mget_mem k1), rfl⟩, k2⟩

theorem examplesFromSADL_at {order : GoMap (GoMap Value) → GoMap (GoMap Value)} {ns : String} (hns : ns ≠ "") {s : Schema} {a : HttpDef} {l : List Value}
    (hl : sadlExamplesForAction order s a = .ok l) (hne : l ≠ []) : ∀ {hs : List HttpDef} {shapes shapes' : GoMap Shape},
    examplesFromSADL order ns s hs shapes = .ok shapes' → (∀ b ∈ hs, capitalize b.name = capitalize a.name → b = a) →
    (a ∈ hs ∨ ∀ sh, mget shapes (ns ++ "#" ++ capitalize a.name) = some sh → mget sh.traits "smithy.api#examples" = some (.arr l)) →
    ∀ sh, mget shapes' (ns ++ "#" ++ capitalize a.name) = some sh → mget sh.traits "smithy.api#examples" = some (.arr l)
  | [], shapes, shapes', h, _, hq => by
    rw [examplesFromSADL] at h
    cases h
    rcases hq with hq | hq
    · cases hq
    · exact hq
  | b :: rest, shapes, shapes', h, hu, hq => by
    rw [examplesFromSADL] at h
    rw [if_pos hns] at h
    obtain ⟨lb, h1, h⟩ := Out.bind_eq_ok.1 h
    refine examplesFromSADL_at hns hl hne h (fun b' hb => hu b' (List.mem_cons_of_mem _ hb)) ?_
    by_cases hb : capitalize b.name = capitalize a.name
    · have e := hu b List.mem_cons_self hb
      subst e
      rw [hl] at h1
      cases h1
      refine .inr fun sh hg => ?_
      split at hg
      · next hn => rw [hn] at hg; cases hg
      · next sh0 hs0 =>
        rw [if_pos hne, mget_mset_same] at hg
        cases hg
        exact mget_mset_same _ _ _
    · rcases hq with hq | hq
      · rcases List.mem_cons.1 hq with rfl | hq
        · exact absurd rfl hb
        · exact .inl hq
      · refine .inr fun sh hg => hq sh ?_
        have hne' : ns ++ "#" ++ capitalize a.name ≠ ns ++ "#" ++ capitalize b.name := by
          intro e
          have := congrArg String.toList e
          rw [String.toList_append, String.toList_append (s := ns ++ "#")] at this
          exact hb (String.toList_inj.1 (List.append_cancel_left this)).symm
        split at hg
        · exact hg
        · split_ifs at hg
          · rw [mget_mset_other _ _ _ _ hne'] at hg; exact hg
          · exact hg

theorem fromSadl_shown (order : MapOrder) (hord : ∀ l, (order l).Perm l) (suf : Suffixes) (m : Model) (ns : String)
    (hns : ns ≠ "") (ast : Ast) (h : fromSadl order suf m ns = .ok ast) (a : HttpDef) (ha : a ∈ m.schema.http)
    (hu : ∀ b ∈ m.schema.http, capitalize b.name = capitalize a.name → b = a) (sh : Shape)
    (hs : mget ast.shapes (ns ++ "#" ++ capitalize a.name) = some sh) (ex0 : ExampleDef) (hx : ex0 ∈ m.schema.examples)
    (ht : ex0.target = capitalize a.name ++ "Request") :
    ∃ l, mget sh.traits "smithy.api#examples" = some (.arr l) ∧ (∀ v ∈ l, ∃ o t, v = .obj o ∧ PairShown m.schema (capitalize a.name) o t) ∧
      ∀ ex ∈ m.schema.examples, ex.target = capitalize a.name ++ "Request" → ∃ o, Value.obj o ∈ l ∧ PairShown m.schema (capitalize a.name) o ex.name := by
  unfold fromSadl at h
  dsimp only at h
  obtain ⟨sh1, -, h⟩ := Out.bind_eq_ok.1 h
  obtain ⟨sh2, -, h⟩ := Out.bind_eq_ok.1 h
  obtain ⟨sh3, h3, h⟩ := Out.bind_eq_ok.1 h
  cases h
  unfold withExamples at h3
  rw [if_pos (by intro e; rw [e] at hx; cases hx)] at h3
  have hrun : ∀ {hs : List HttpDef} {shapes shapes' : GoMap Shape}, examplesFromSADL order ns m.schema hs shapes = .ok shapes' → a ∈ hs →
      ∃ l, sadlExamplesForAction order m.schema a = .ok l := by
    intro hs
    induction hs with
    | nil => intro _ _ _ hm; cases hm
    | cons b rest ih =>
      intro shapes shapes' h hm
      rw [examplesFromSADL] at h
      obtain ⟨lb, h1, h⟩ := Out.bind_eq_ok.1 h
      rcases List.mem_cons.1 hm with rfl | hm
      · exact ⟨lb, h1⟩
      · exact ih h hm
  obtain ⟨l, hl⟩ := hrun h3 ha
  obtain ⟨k1, k2⟩ := actionExamples_shown hord hl
  have hne : l ≠ [] := by
    obtain ⟨o, ho, -⟩ := k2 ex0 hx ht
    intro e; rw [e] at ho; cases ho
  exact ⟨l, examplesFromSADL_at hns hl hne h3 hu (.inl ha) sh hs, k1, k2⟩

/-- C124 (part): if the schema has an example of the request of an action, the shape of the operation shows every example of its request, under
its name, with its comment and the example of the response with that name; of several with the same name, the last; and nothing else.  The full
property, for the examples of responses too, is false: see `C124_refuted_dropped`. -/
theorem C124_shown_partial (order : MapOrder) (hord : ∀ l, (order l).Perm l) (io : Bool) (confNs : String) (m : Model) (ast : Ast)
    (h : exportSmithy order io confNs m = .ok ast) : ∃ ns, ∀ a ∈ m.schema.http, a.name ≠ "" →
    (∀ b ∈ m.schema.http, capitalize b.name = capitalize a.name → b = a) →
    ∃ sh, mget ast.shapes (ns ++ "#" ++ capitalize a.name) = some sh ∧
    ((∃ ex ∈ m.schema.examples, ex.target = capitalize a.name ++ "Request") →
      ∃ l, mget sh.traits "smithy.api#examples" = some (.arr l) ∧ (∀ v ∈ l, ∃ o t, v = .obj o ∧ PairShown m.schema (capitalize a.name) o t) ∧
        ∀ ex ∈ m.schema.examples, ex.target = capitalize a.name ++ "Request" →
          ∃ o, Value.obj o ∈ l ∧ PairShown m.schema (capitalize a.name) o ex.name) := by
  obtain ⟨ns, hns, h'⟩ := export_is_from order io confNs m
  rw [h'] at h
  refine ⟨ns, fun a ha hn hu => ?_⟩
  have hk : ns ++ "#" ++ capitalize a.name ∈ ast.shapes.map Prod.fst := fromSadl_has h (by
    have e : OpName a = capitalize a.name := by unfold OpName; rw [if_neg hn]
    rw [← e]
    unfold ShapeNames
    exact List.mem_append_left _ (List.mem_append_left _ (List.mem_append_right _ (List.mem_flatMap.2 ⟨a, ha, by simp⟩))))
  cases hs : mget ast.shapes (ns ++ "#" ++ capitalize a.name) with
  | none => exact absurd hk ((mget_none_iff _ _).1 hs)
  | some sh =>
    refine ⟨sh, rfl, fun ⟨ex0, hx, ht⟩ => ?_⟩
    exact fromSadl_shown order hord (chosen io) m ns hns ast h a ha hu sh hs ex0 hx ht

/-- C124 is false of the examples of responses: if an action has examples of its request, an example of its response without one of the request
with the same name is not shown by its operation. -/
theorem C124_refuted_dropped (order : MapOrder) (hord : ∀ l, (order l).Perm l) (io : Bool) (confNs : String) (m : Model) (ast : Ast)
    (h : exportSmithy order io confNs m = .ok ast) : ∃ ns, ∀ a ∈ m.schema.http, a.name ≠ "" →
    (∀ b ∈ m.schema.http, capitalize b.name = capitalize a.name → b = a) →
    (∃ ex ∈ m.schema.examples, ex.target = capitalize a.name ++ "Request") →
    ∃ sh l, mget ast.shapes (ns ++ "#" ++ capitalize a.name) = some sh ∧ mget sh.traits "smithy.api#examples" = some (.arr l) ∧
      ∀ ex : ExampleDef, (∀ q ∈ m.schema.examples, q.target = capitalize a.name ++ "Request" → q.name ≠ ex.name) →
        ∀ o, Value.obj o ∈ l → mget o "title" ≠ some (.str ex.name) := by
  obtain ⟨ns, hall⟩ := C124_shown_partial order hord io confNs m ast h
  refine ⟨ns, fun a ha hn hu hx => ?_⟩
  obtain ⟨sh, h1, h2⟩ := hall a ha hn hu
  obtain ⟨l, h3, h4, -⟩ := h2 hx
  refine ⟨sh, l, h1, h3, fun ex hq o ho => ?_⟩
  obtain ⟨o', t, e, hp⟩ := h4 _ ho
  injection e with e
  subst e
  obtain ⟨q, hl, -⟩ := hp.input
  obtain ⟨m1, m2⟩ := List.mem_filter.1 (List.mem_of_getLast? hl)
  simp only [Bool.and_eq_true, beq_iff_eq] at m2
  rw [hp.title]
  intro e
  injection e with e
  injection e with e
  exact hq q m1 m2.1 (m2.2.trans e)

/-- The example of the zoo is shown, with its input and its output. -/
example : ∃ m ast ns sh l o, m.schema = animals ∧ exportSmithy id false "com.example" m = .ok ast ∧
    mget ast.shapes (ns ++ "#" ++ "GetAnimal") = some sh ∧ mget sh.traits "smithy.api#examples" = some (.arr l) ∧ Value.obj o ∈ l ∧
    mget o "title" = some (.str "one") ∧ mget o "input" = some (.obj [("name", .str "tom")]) ∧ mget o "output" = some (.obj []) := by
  obtain ⟨m, _, hs⟩ := animals_model
  obtain ⟨ast, h⟩ := (C58_succeeds_iff id false "com.example" m).2 (hs ▸ animals_ready false)
  obtain ⟨ns, hall⟩ := C124_shown_partial id (fun _ => .rfl) false "com.example" m ast h
  rw [hs] at hall
  have hc : capitalize "getAnimal" = "GetAnimal" := by decide +kernel
  obtain ⟨sh, h1, h2⟩ := hall animals.http[0] (by simp [animals]) (by decide) (by
    intro b hb _
    simp only [animals, List.mem_singleton] at hb
    exact hb)
  replace h1 : mget ast.shapes (ns ++ "#" ++ capitalize "getAnimal") = some sh := h1
  have ht : animals.examples[0].target = capitalize animals.http[0].name ++ "Request" := by decide +kernel
  have hm : animals.examples[0] ∈ animals.examples := by simp [animals]
  obtain ⟨l, h3, -, h4⟩ := h2 ⟨_, hm, ht⟩
  obtain ⟨o, h5, h6⟩ := h4 _ hm ht
  have hq : lastExample (capitalize animals.http[0].name ++ "Request") "one" animals.examples = some animals.examples[0] := by
    rw [← ht]; rfl
  have hr : lastExample (capitalize animals.http[0].name ++ "Response") "one" animals.examples = some animals.examples[1] := by
    have : capitalize animals.http[0].name ++ "Response" = "GetAnimalResponse" := by decide +kernel
    rw [this]; rfl
  refine ⟨m, ast, ns, sh, l, o, hs, h, hc ▸ h1, h3, h5, h6.title, ?_, ?_⟩
  · obtain ⟨ex, e1, e2, -⟩ := h6.input
    have e3 := hq.symm.trans e1
    cases e3
    exact e2
  · have e := h6.output
    rw [show animals.examples[0].name = "one" from rfl, hr] at e
    exact e

end Sadl.Props
