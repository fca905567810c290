import Verif.Lemmas.OpenApiShown
import Verif.Props.OpenApi
/-
C110: the examples of the schema in the exported OpenAPI document.
-/
namespace Sadl.Props
open Sadl Sadl.Spec

/-- C110 (part): the schema of a type shows the last of the examples of the type, and no other.
Missing: the other examples of the type, for which it is false. -/
theorem C110_types_partial (lib : OLib) (m : Model) (d : ODoc) (hd : Exports lib m (.ok d)) (T : String) (c : OSchema)
    (hc : mget d.schemas T = some c) : c.example = (lastOfType T m.schema.examples).getD .null := by
  obtain ⟨n, hn⟩ := exports_run hd
  exact exportOas_types hn hc

/-- C110 (part): the operation of the foremost action of a path shows all that the examples give
for the parameters and the body of its request and for the body of its response; of several
examples with the same name, the last.  Missing: the other actions, and what the examples of a
response give for its headers, for which it is false. -/
theorem C110_operations_partial (lib : OLib) (hord : ∀ l, (lib.order l).Perm l) (m : Model) (hm : newModel m.schema = .ok m) (d : ODoc)
    (hd : Exports lib m (.ok d)) (h : HttpDef) (hh : h ∈ m.schema.http) (hf : Foremost m.schema h) (e : HttpExpectedSpec)
    (he : h.expected = some e) (path : String) (hp : LivesAt m.schema.base h path) (k : OMethod) (hk : h.method = methodName k)
    (op : OOperation) (ho : OperationAt d path k op) :
    OpShows op (String.ofList (showInt e.status)) (fun key => given m.schema h ["Request", "Response"] key m.schema.examples)
      (given m.schema h ["Request"] "body" m.schema.examples) (given m.schema h ["Response"] "body" m.schema.examples) := by
  obtain ⟨n, hn⟩ := exports_run hd
  obtain ⟨schemas, paths, _, _, _, h4⟩ := exportOas_ok hord hn
  obtain ⟨k', hk', _⟩ := foremost_iff.1 hf
  obtain rfl : k' = k := by
    have := ((oasMethod_iff _ _).1 hk').1.symm.trans hk
    cases k' <;> cases k <;> first | rfl | exact absurd this (by decide)
  have := exportOas_shown hord hm hn h hh e he k' hk' op (by
    rw [← (livesAt_iff _ _ _).1 hp]
    exact (operationAt_iff h4.distinct _ _ _).1 ho)
  unfold heard at this
  rw [if_pos hf] at this
  exact this

/-- C110: the operations of all other actions show no examples. -/
theorem C110_not_foremost (lib : OLib) (hord : ∀ l, (lib.order l).Perm l) (m : Model) (hm : newModel m.schema = .ok m) (d : ODoc)
    (hd : Exports lib m (.ok d)) (h : HttpDef) (hh : h ∈ m.schema.http) (hf : ¬ Foremost m.schema h) (e : HttpExpectedSpec)
    (he : h.expected = some e) (path : String) (hp : LivesAt m.schema.base h path) (k : OMethod) (hk : h.method = methodName k)
    (op : OOperation) (ho : OperationAt d path k op) :
    OpShows op (String.ofList (showInt e.status)) (fun _ => []) [] [] := by
  obtain ⟨n, hn⟩ := exports_run hd
  obtain ⟨schemas, paths, _, h2, _, h4⟩ := exportOas_ok hord hn
  have hp' := (operationAt_iff h4.distinct _ _ _).1 ho
  have hk' : oasMethod h.method = some k := by
    have := h4.ops path k
    rw [hp'] at this
    obtain ⟨op', h6, _⟩ := Option.map_eq_some_iff.1 this.symm
    rcases (exportHttp_ok h2).2.2.1 path k op' h6 with h | ⟨a, _, _, hka, _⟩
    · cases k <;> simp [pathOp, mget, OPathItem.op] at h
    · rw [hk, ← ((oasMethod_iff _ _).1 hka).1]; exact hka
  have := exportOas_shown hord hm hn h hh e he k hk' op (by rw [← (livesAt_iff _ _ _).1 hp]; exact hp')
  unfold heard at this
  rw [if_neg hf] at this
  exact this

/-! ### An example -/

/-- The actions of the example: `getItem` is the foremost one of its path. -/
theorem shop_foremost : Foremost shop shop.http[0] := ⟨[], ["PUT", "DELETE", "POST"], rfl, by simp⟩

/-- The examples of the example give a value for the parameter `id` of the request and one, which has a
name, for the body of the response. -/
theorem shop_given :
    given shop shop.http[0] ["Request", "Response"] "id" shop.examples = [("", .str "a1")] ∧
    given shop shop.http[0] ["Response"] "body" shop.examples = [("small", .obj [("id", .str "a1")])] := by
  have hn : ∀ t, t ≠ "Tag" → t ≠ "Item" → t ≠ "NotFound" → ¬ Named shop t := by
    rintro t h1 h2 h3 ⟨td, h4, h5⟩
    simp only [shop, List.mem_cons, List.not_mem_nil, or_false] at h4
    rcases h4 with rfl | rfl | rfl
    · exact h1 h5.symm
    · exact h2 h5.symm
    · exact h3 h5.symm
  have a1 : ∀ w, ¬ About shop shop.http[0] w shop.examples[0] := fun w h => h.1 (shop_named _ (by simp [shop]))
  have n2 : ¬ Named shop shop.examples[1].target := hn _ (by decide) (by decide) (by decide)
  have n3 : ¬ Named shop shop.examples[2].target := hn _ (by decide) (by decide) (by decide)
  have a2 : About shop shop.http[0] "Request" shop.examples[1] := ⟨n2, "GetItem", rfl, by decide⟩
  have b2 : ¬ About shop shop.http[0] "Response" shop.examples[1] := (about_request (base := "GetItem") n2 rfl).2
  have a3 : About shop shop.http[0] "Response" shop.examples[2] := ⟨n3, "GetItem", rfl, by decide⟩
  have e : shop.examples = [shop.examples[0], shop.examples[1], shop.examples[2]] := rfl
  rw [e]
  simp only [given]
  constructor
  · rw [if_neg (by rintro ⟨w, _, h⟩; exact a1 w h), if_pos ⟨"Request", by simp, a2⟩, if_pos ⟨"Response", by simp, a3⟩]
    rfl
  · rw [if_neg (by rintro ⟨w, _, h⟩; exact a1 w h), if_neg (by simpa using b2), if_pos ⟨"Response", by simp, a3⟩]
    rfl

/-- So its document shows them. -/
example : ∃ m d op, m.schema = shop ∧ Exports plainO m (.ok d) ∧ OperationAt d "/v1/items/{id}" .get op ∧
    (∀ p ∈ op.parameters, p.name = "id" → p.example = .str "a1") ∧
    ∀ r mt, mget op.responses "200" = some r → mget r.content "application/json" = some mt →
      mget mt.examples "small" = some (.obj [("id", .str "a1")]) := by
  have h : exportsB plainO shop 5 (fun _ => true) = true := by decide +kernel
  unfold exportsB at h
  split at h
  · next m hm =>
    have hs : m.schema = shop := by obtain ⟨_, _, _, rfl⟩ := (newModel_ok_iff _ _).1 hm; rfl
    split at h
    · next d hd =>
      have hd' : Exports plainO m (.ok d) := ⟨by simp, 5, hd⟩
      have hp : LivesAt m.schema.base shop.http[0] "/v1/items/{id}" := ⟨"full={full}".toList, by rw [hs]; unfold PathAndQuery; decide⟩
      obtain ⟨k, op, h1, h2, _⟩ := C44_operations_partial plainO (fun _ => .rfl) m d hd' shop.http[0] (by rw [hs]; simp [shop])
        (by simp [shop, ExportedMethods]) "/v1/items/{id}" hp
      have : k = .get := by cases k <;> first | rfl | (simp [shop, methodName] at h1)
      subst this
      obtain ⟨e, he, h200⟩ : ∃ e, shop.http[0].expected = some e ∧ String.ofList (showInt e.status) = "200" := ⟨_, rfl, by decide⟩
      have hx := C110_operations_partial plainO (fun _ => .rfl) m (hs ▸ hm) d hd' shop.http[0] (by rw [hs]; simp [shop])
        (by rw [hs]; exact shop_foremost) e he "/v1/items/{id}" hp .get h1 op h2
      rw [h200, hs, shop_given.2] at hx
      refine ⟨m, d, op, hs, hd', h2, fun p hpm hpn => ?_, fun r mt hr hmt => ?_⟩
      · have := (hx.params p hpm).unnamed
        rw [hpn, if_neg (by decide), shop_given.1] at this
        exact this
      · exact ((hx.response r mt hr hmt).named "small").trans rfl
    · simp at h
  · simp at h

/-! ### What is false -/

/-- No example in the operation. -/
def noExampleB (op : OOperation) : Bool :=
  let none := fun (v : Value) (vs : GoMap Value) => (match v with | .null => true | _ => false) && vs.isEmpty
  op.parameters.all (fun p => none p.example p.examples) &&
  (match op.requestBody with | some b => b.content.all fun e => none e.2.example e.2.examples | _ => true) &&
  op.responses.all fun r => r.2.content.all fun e => none e.2.example e.2.examples

/-- The value is that text. -/
def isTextB (v : Value) (t : String) : Bool := match v with | .strPtr u => u == t | _ => false

theorem isTextB_iff {v : Value} {t : String} (h : isTextB v t = true) : v = .strPtr t := by
  unfold isTextB at h
  split at h
  · rw [beq_iff_eq.1 h]
  · cases h

/-- Two examples of a type, with different names. -/
def twoExamples : List Token :=
  [sym "type", sym "Foo", sym "String", nl,
   sym "example", sym "Foo", punct .openParen, sym "name", punct .equals, sym "one", punct .closeParen, str "a", nl,
   sym "example", sym "Foo", punct .openParen, sym "name", punct .equals, sym "two", punct .closeParen, str "b", nl]

/-- C110 is false: of several examples of a type only one is in the document, whatever their names. -/
theorem C110_refuted_types : ∃ m d c ex, Accepted noLib m ∧ Exports plainO m (.ok d) ∧ ex ∈ m.schema.examples ∧ ex.name = "one" ∧
    ex.target = "Foo" ∧ ex.example = .strPtr "a" ∧ mget d.schemas "Foo" = some c ∧ c.example = .strPtr "b" := by
  obtain ⟨m, d, h1, h2, h3, h4⟩ := exported_of twoExamples
    (fun m => m.schema.examples.any fun ex => ex.name == "one" && ex.target == "Foo" && isTextB ex.example "a")
    (fun d => match mget d.schemas "Foo" with | some c => isTextB c.example "b" | none => false) (by decide +kernel) (by decide +kernel)
  obtain ⟨ex, h5, h6⟩ := List.any_eq_true.1 h3
  simp only [Bool.and_eq_true, beq_iff_eq] at h6
  split at h4
  · next c hc => exact ⟨m, d, c, ex, h1, h2, h5, h6.1.1, h6.1.2, isTextB_iff h6.2, hc, isTextB_iff h4⟩
  · cases h4

/-- Two actions on the same path, and an example of the request of the second. -/
def secondRequest : List Token :=
  [sym "http", sym "GET", str "/foo", punct .openParen, sym "operation", punct .equals, sym "getFoo", punct .closeParen, punct .openBrace, nl,
   sym "expect", num "204", punct .openBrace, nl, punct .closeBrace, nl, punct .closeBrace, nl,
   sym "http", sym "PUT", str "/foo", punct .openParen, sym "operation", punct .equals, sym "putFoo", punct .closeParen, punct .openBrace, nl,
   sym "body", sym "String", nl,
   sym "expect", num "204", punct .openBrace, nl, punct .closeBrace, nl, punct .closeBrace, nl,
   sym "example", sym "PutFooRequest", punct .openBrace, str "body", punct .colon, str "a", punct .closeBrace, nl]

/-- C110 is false: the examples of a request are dropped unless its action is the first of its path. -/
theorem C110_refuted_second : ∃ m d ex op, Accepted noLib m ∧ Exports plainO m (.ok d) ∧ ex ∈ m.schema.examples ∧
    ex.target = "PutFooRequest" ∧ OperationAt d "/foo" .put op ∧ op.operationId = "putFoo" ∧ noExampleB op = true := by
  obtain ⟨m, d, h1, h2, h3, h4⟩ := exported_of secondRequest
    (fun m => m.schema.examples.any fun ex => ex.target == "PutFooRequest")
    (fun d => d.paths.any fun e => e.1 == "/foo" && match e.2.put with | some op => op.operationId == "putFoo" && noExampleB op | none => false)
    (by decide +kernel) (by decide +kernel)
  obtain ⟨ex, h5, h6⟩ := List.any_eq_true.1 h3
  obtain ⟨⟨p, pi⟩, h7, h8⟩ := List.any_eq_true.1 h4
  simp only [Bool.and_eq_true, beq_iff_eq] at h6 h8
  obtain ⟨rfl, h8⟩ := h8
  split at h8
  · next op hop =>
    simp only [Bool.and_eq_true, beq_iff_eq] at h8
    exact ⟨m, d, ex, op, h1, h2, h5, h6, ⟨pi, h7, hop⟩, h8⟩
  · cases h8

/-- An action whose response has a header of the same name as a parameter of its request, and an
example of the response. -/
def headerExample : List Token :=
  [sym "http", sym "GET", str "/foo?q={q}", punct .openParen, sym "operation", punct .equals, sym "getFoo", punct .closeParen, punct .openBrace, nl,
   sym "q", sym "String", nl,
   sym "expect", num "204", punct .openBrace, nl,
   sym "q", sym "String", punct .openParen, sym "header", punct .equals, str "X-Q", punct .closeParen, nl, punct .closeBrace, nl, punct .closeBrace, nl,
   sym "example", sym "GetFooResponse", punct .openBrace, str "q", punct .colon, str "a", punct .closeBrace, nl]

/-- C110 is false: what the example of a response gives for a header of the response is shown as an
example of the parameter of the request with the same name. -/
theorem C110_refuted_header : ∃ m d op p, Accepted noLib m ∧ Exports plainO m (.ok d) ∧
    (∀ ex ∈ m.schema.examples, ex.target = "GetFooResponse") ∧ OperationAt d "/foo" .get op ∧ op.operationId = "getFoo" ∧
    p ∈ op.parameters ∧ p.example = .strPtr "a" := by
  obtain ⟨m, d, h1, h2, h3, h4⟩ := exported_of headerExample
    (fun m => m.schema.examples.all fun ex => ex.target == "GetFooResponse")
    (fun d => d.paths.any fun e => e.1 == "/foo" && match e.2.get with
      | some op => op.operationId == "getFoo" && op.parameters.any fun p => isTextB p.example "a"
      | none => false)
    (by decide +kernel) (by decide +kernel)
  obtain ⟨⟨p, pi⟩, h7, h8⟩ := List.any_eq_true.1 h4
  simp only [Bool.and_eq_true, beq_iff_eq] at h8
  obtain ⟨rfl, h8⟩ := h8
  split at h8
  · next op hop =>
    simp only [Bool.and_eq_true, beq_iff_eq] at h8
    obtain ⟨q, h9, h10⟩ := List.any_eq_true.1 h8.2
    exact ⟨m, d, op, q, h1, h2, fun ex hex => by simpa using List.all_eq_true.1 h3 ex hex, ⟨pi, h7, hop⟩, h8.1, h9, isTextB_iff h10⟩
  · cases h8

end Sadl.Props
