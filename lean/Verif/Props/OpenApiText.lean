import Verif.Props.OpenApiRules
import Verif.Lemmas.OpenApiText
import Verif.Lemmas.OpenApiAnyDoc
/-
C116: the text of an exported document is an OpenAPI document.
-/
namespace Sadl.Props
open Sadl Sadl.Spec

theorem exportInputs_body {conv : TypeSpec → String → Ran OSchema} {ins : List HttpParamSpec} {op op' : OOperation}
    (h : exportInputs conv ins op = .ok op') (ho : ∀ b ∈ op.requestBody, b.content ≠ []) : ∀ b ∈ op'.requestBody, b.content ≠ [] := by
  induction ins generalizing op with
  | nil => cases h; exact ho
  | cons p rest ih =>
    unfold exportInputs at h
    obtain ⟨s, hs, h⟩ := Ran.bind_eq_ok.1 h
    refine ih h fun b hb => ?_
    unfold exportInput at hb
    dsimp only at hb
    split_ifs at hb
    · exact ho b hb
    · exact ho b hb
    · exact ho b hb
    · cases hb; simp [jsonContent]

/-- The body of a request has a content. -/
theorem body_written {lib : OLib} (hord : ∀ l, (lib.order l).Perm l) {m : Model} {d : ODoc} (hd : Exports lib m (.ok d))
    {path : String} {k : OMethod} {op : OOperation} (ho : OperationAt d path k op) : ∀ b ∈ op.requestBody, b.content ≠ [] := by
  obtain ⟨n, hn⟩ := exports_run hd
  obtain ⟨schemas, paths, _, h2, h3, h4⟩ := exportOas_ok hord hn
  have h5 := h4.ops path k
  rw [(operationAt_iff h4.distinct _ _ _).1 ho] at h5
  obtain ⟨op', h6, h7⟩ := Option.map_eq_some_iff.1 h5.symm
  rcases (exportHttp_ok h2).2.2.1 path k op' h6 with h | ⟨a, ha, hp, hk, hop⟩
  · cases k <;> simp [pathOp, mget, OPathItem.op] at h
  · have h8 : ∀ b ∈ op'.requestBody, b.content ≠ [] := by
      unfold exportOp at hop
      obtain ⟨op1, i1, hop⟩ := Ran.bind_eq_ok.1 hop
      have := exportInputs_body i1 (by simp)
      cases he : a.expected with
      | none => rw [he] at hop; simp at hop
      | some e =>
        rw [he] at hop
        obtain ⟨r, i2, hop⟩ := Ran.bind_eq_ok.1 hop
        cases hop
        exact this
    intro b hb h0
    have hr := congrArg OOperation.requestBody h7
    unfold OOperation.bare at hr
    dsimp only at hr
    rw [Option.mem_def.1 hb] at hr
    obtain ⟨b', hb', hbb⟩ := Option.map_eq_some_iff.1 hr
    have hc := congrArg OBody.content hbb
    unfold OBody.bare bareContent at hc
    dsimp only at hc
    rw [h0, List.map_nil, List.map_eq_nil_iff] at hc
    exact h8 b' hb' hc

/-- C116 (part): the text printed for the document of an accepted source, if it can be printed (see C113), is JSON, and an OpenAPI document exactly if
the schema is complete (see C111) and does not give an empty server.  Missing: schemas that are not complete or give an empty server, for which it is
false. -/
theorem C116_text_partial (plib : PLib) (lib : OLib) (hord : ∀ l, (lib.order l).Perm l) (L : JLib) (n : Nat) (hn : n ≤ 4990) (m : Model) (hm : Accepted plib m)
    (d : ODoc) (hd : Exports lib m (.ok d)) (hok : ODocOk L n d) :
    ∃ text j, docText L d = some text ∧ jRead text.toList = some j ∧
      (OpenApiObject j ↔ OasComplete m.schema ∧ mget m.schema.annotations "x_server" ≠ some "") := by
  obtain ⟨ms, h1, h2, h3⟩ := odoc_trip hn hok
  obtain ⟨f1, f2⟩ := fine_obj h2
  refine ⟨String.ofList (jPretty true 0 (.obj ms) ++ ['\n']), .obj ms, by rw [docText, h1]; rfl, ?_, ?_⟩
  · rw [String.toList_ofList, jRead_pretty _ f1, if_pos (show _ ≤ jMaxDepth by unfold jMaxDepth; omega)]
  have hh := C111_head lib hord m d hd
  have hk := head_paths hord hd
  have hsrv : d.servers = "http://localhost:8000" :: (mget m.schema.annotations "x_server").toList := by
    cases hx : mget m.schema.annotations "x_server" with
    | none => rw [hh.noServer hx]; rfl
    | some u => rw [hh.server u hx]; rfl
  constructor
  · intro ho
    obtain ⟨t1, t2, t3, t4⟩ := document_head h1 ho
    refine ⟨⟨hh.title ▸ t1, fun hl h0 => ?_, fun h hh' path hp => ?_⟩, fun h0 => ?_⟩
    · exact t2 _ (hh.license (.inr hl)) h0
    · obtain ⟨p, hp1, hp2⟩ := List.mem_map.1 ((hk path).2 ⟨h, hh', (livesAt_iff _ _ _).1 hp⟩)
      exact hp2 ▸ t4 p hp1
    · rw [h0] at hsrv
      exact t3 "" (by rw [hsrv]; simp) rfl
  · rintro ⟨hc, hs⟩
    refine document_object hok hh.standard (hh.title ▸ hc.name) ?_ (fun l hl h0 => ?_) (fun u hu h0 => ?_) (fun p hp => ?_) (fun p hp k o ho => ?_) h1
    · rcases hh.version with ⟨v1, v2⟩ | ⟨_, v2⟩
      · rw [v2]; exact v1
      · rw [v2]; decide
    · by_cases c1 : annotation m.schema "x_license_name" = ""
      · by_cases c2 : annotation m.schema "x_license_url" = ""
        · rw [hh.noLicense c1 c2] at hl; cases hl
        · exact hc.license c2 c1
      · rw [hh.license (.inl c1)] at hl
        cases hl
        exact c1 h0
    · rw [hsrv] at hu
      rcases List.mem_cons.1 hu with rfl | hu
      · exact absurd h0 (by decide)
      · rw [Option.mem_toList, h0] at hu
        exact hs hu
    · obtain ⟨h, hh', he⟩ := (hk p.1).1 (List.mem_map.2 ⟨p, hp, rfl⟩)
      exact hc.paths h hh' p.1 ((livesAt_iff _ _ _).2 he)
    · have hat : OperationAt d p.1 k o := ⟨p.2, hp, ho⟩
      exact ⟨C115_rules plib lib hord m hm d hd p.1 k o hat, body_written hord hd hat⟩

/-- C113 (part): the document of every schema without examples, exported without going more than 4988 types deep, is printed and read as the same
document, if its bounds are printed so that they can be read.  Missing: examples, and deeper types. -/
theorem C113_schema_partial (lib : OLib) (L : JLib) (n : Nat) (hn : n ≤ 4988) (m : Model) (hm : newModel m.schema = .ok m) (d : ODoc)
    (hd : exportOasN n lib m = .ok d) (hex : m.schema.examples = []) (hl : SchemaLimitsPrint L lib m.schema) :
    ∃ text, docText L d = some text ∧ loadOas L text = .ok { doc := odocBack L d } :=
  C113_document_partial L (n + 2) (by omega) d (limits_document hm L hd hex hl)

/-- C116 (part): the text printed for the document of an accepted source without examples, exported without going more than 4988 types deep, whose
bounds are printed so that they can be read, is JSON, and an OpenAPI document exactly if the schema is complete and does not give an empty server.
Missing: examples, deeper types, and the other schemas, for which it is false. -/
theorem C116_source_partial (plib : PLib) (lib : OLib) (hord : ∀ l, (lib.order l).Perm l) (L : JLib) (n : Nat) (hn : n ≤ 4988) (m : Model)
    (hm : Accepted plib m) (d : ODoc) (hd : exportOasN n lib m = .ok d) (hex : m.schema.examples = []) (hl : SchemaLimitsPrint L lib m.schema) :
    ∃ text j, docText L d = some text ∧ jRead text.toList = some j ∧
      (OpenApiObject j ↔ OasComplete m.schema ∧ mget m.schema.annotations "x_server" ≠ some "") :=
  C116_text_partial plib lib hord L (n + 2) (by omega) m hm d ⟨by simp, n, hd⟩ (limits_document (accepted_newModel hm) L hd hex hl)

/-! ### Examples -/

/-- No bounds in the type and its fields. -/
def unboundB (ts : TypeSpec) : Bool :=
  ts.min.isNone && ts.max.isNone && ts.fields.all fun f => f.ts.min.isNone && f.ts.max.isNone && f.ts.fields.isEmpty

theorem unbound_limits {L : JLib} {lib : OLib} {ts : TypeSpec} (h : unboundB ts = true) : LimitsPrint L lib ts := by
  unfold unboundB at h
  simp only [Bool.and_eq_true, List.all_eq_true, Option.isNone_iff_eq_none, List.isEmpty_iff] at h
  obtain ⟨⟨h1, h2⟩, h3⟩ := h
  refine .mk (by rw [h1]; simp) (by rw [h2]; simp) fun f hf => ?_
  obtain ⟨⟨h4, h5⟩, h6⟩ := h3 f hf
  exact .mk (by rw [h4]; simp) (by rw [h5]; simp) (by rw [h6]; simp)

/-- No bounds and examples in the schema. -/
def unboundSchemaB (s : Schema) : Bool :=
  s.examples.isEmpty && s.types.all (fun td => unboundB td.ts) &&
    s.http.all fun h => h.inputs.all (fun p => unboundB p.field.ts) && match h.expected with | none => true | some e => e.outputs.all fun p => unboundB p.field.ts

theorem unbound_schema {L : JLib} {lib : OLib} {s : Schema} (h : unboundSchemaB s = true) : s.examples = [] ∧ SchemaLimitsPrint L lib s := by
  unfold unboundSchemaB at h
  simp only [Bool.and_eq_true, List.all_eq_true, List.isEmpty_iff] at h
  obtain ⟨⟨h1, h2⟩, h3⟩ := h
  refine ⟨h1, fun td htd => unbound_limits (h2 td htd), fun a ha p hp => unbound_limits ((h3 a ha).1 p hp), fun a ha e he o ho => ?_⟩
  have := (h3 a ha).2
  rw [Option.mem_def.1 he] at this
  exact unbound_limits (List.all_eq_true.1 this o ho)

/-- The schema is complete. -/
def completeB (s : Schema) : Bool :=
  s.name != "" && (mget s.annotations "x_license_url").isNone && s.http.all fun h => (oasPath s.base h).toList.head? == some '/'

theorem complete_of {s : Schema} (h : completeB s = true) : OasComplete s := by
  unfold completeB at h
  simp only [Bool.and_eq_true, bne_iff_ne, List.all_eq_true, Option.isNone_iff_eq_none, beq_iff_eq] at h
  obtain ⟨⟨h1, h2⟩, h3⟩ := h
  refine ⟨h1, fun h0 => ?_, fun a ha path hp => ?_⟩
  · unfold annotation at h0; rw [h2] at h0; exact absurd rfl h0
  · rw [(livesAt_iff _ _ _).1 hp]; exact h3 a ha

/-- Accepts, exports and looks at the schema. -/
def oasSourceB (q : Schema → Bool) (m : Model) : Bool :=
  unboundSchemaB m.schema && q m.schema && match exportOasN 9 plainO m with | .ok _ => true | _ => false

theorem oasSource_of (toks : List Token) (q : Schema → Bool) (h1 : toks.all (fun t => decide (t.type = .symbol → t.text ≠ "")) = true)
    (h : accepts noLib toks (oasSourceB q) = true) :
    ∃ m d, Accepted noLib m ∧ q m.schema = true ∧ Exports plainO m (.ok d) ∧ ∀ L, ∃ text j, docText L d = some text ∧ jRead text.toList = some j ∧
      (OpenApiObject j ↔ OasComplete m.schema ∧ mget m.schema.annotations "x_server" ≠ some "") := by
  obtain ⟨m, hm, h⟩ := accepted_of noLib toks _ h1 h
  unfold oasSourceB at h
  rw [Bool.and_eq_true, Bool.and_eq_true] at h
  obtain ⟨⟨h2, h3⟩, h4⟩ := h
  split at h4
  · next d hd =>
    exact ⟨m, d, hm, h3, ⟨by simp, 9, hd⟩, fun L => C116_source_partial noLib plainO (fun _ => .rfl) L 9 (by decide) m hm d hd
      (unbound_schema (L := L) (lib := plainO) h2).1 (unbound_schema h2).2⟩
  · cases h4

/-- A source with an array of structures with a map, and an action. -/
def shopSource : List Token :=
  [sym "name", sym "shop", nl, sym "base", str "/v1", nl, sym "type", sym "Foo", sym "Struct", punct .openBrace, nl, sym "a", sym "Map", punct .openAngle, sym "String", punct .comma,
    sym "Int32", punct .closeAngle, nl, punct .closeBrace, nl, sym "type", sym "Foos", sym "Array", punct .openAngle, sym "Foo", punct .closeAngle, nl,
    sym "http", sym "PUT", str "/foo/{id}", punct .openBrace, nl, sym "id", sym "String", nl, sym "body", sym "Foo", nl,
    sym "expect", num "200", punct .openBrace, nl, sym "body", sym "Foos", nl, punct .closeBrace, nl,
    sym "except", num "404", sym "Foo", nl, punct .closeBrace, nl]

/-- The text of its document is an OpenAPI document, whatever the library that prints its numbers. -/
example : ∃ m d, Accepted noLib m ∧ Exports plainO m (.ok d) ∧ m.schema.types.map (·.name) = ["Foo", "Foos"] ∧ m.schema.http.map (·.path) = ["/foo/{id}"] ∧
    ∀ L, ∃ text j, docText L d = some text ∧ jRead text.toList = some j ∧ OpenApiObject j := by
  obtain ⟨m, d, h1, h2, h3, h4⟩ := oasSource_of shopSource
    (fun s => completeB s && (mget s.annotations "x_server").isNone && decide (s.types.map (·.name) = ["Foo", "Foos"] ∧ s.http.map (·.path) = ["/foo/{id}"]))
    (by decide +kernel) (by decide +kernel)
  rw [Bool.and_eq_true, Bool.and_eq_true] at h2
  obtain ⟨⟨c1, c2⟩, c3⟩ := h2
  obtain ⟨c3, c4⟩ := of_decide_eq_true c3
  refine ⟨m, d, h1, h3, c3, c4, fun L => ?_⟩
  obtain ⟨text, j, t1, t2, t3⟩ := h4 L
  refine ⟨text, j, t1, t2, t3.2 ⟨complete_of c1, ?_⟩⟩
  rw [Option.isNone_iff_eq_none.1 c2]
  simp

/-! ### What is false -/

/-- C116 is false: the document of a schema with an empty name has no title, which OpenAPI requires. -/
theorem C116_refuted_unnamed : ∃ m d, Accepted noLib m ∧ Exports plainO m (.ok d) ∧
    ∀ L, ∃ text j, docText L d = some text ∧ jRead text.toList = some j ∧ ¬ OpenApiObject j := by
  obtain ⟨m, d, h1, h2, h3, h4⟩ := oasSource_of ([sym "name", str "", nl] ++ getAt "/foo") (fun s => s.name == "") (by decide +kernel) (by decide +kernel)
  refine ⟨m, d, h1, h3, fun L => ?_⟩
  obtain ⟨text, j, t1, t2, t3⟩ := h4 L
  exact ⟨text, j, t1, t2, fun h => (t3.1 h).1.name (by simpa using h2)⟩

/-- C116 is false: a complete schema with an empty server is exported with a server that has no `url`, which OpenAPI requires. -/
theorem C116_refuted_server : ∃ m d, Accepted noLib m ∧ Exports plainO m (.ok d) ∧ OasComplete m.schema ∧
    ∀ L, ∃ text j, docText L d = some text ∧ jRead text.toList = some j ∧ ¬ OpenApiObject j := by
  obtain ⟨m, d, h1, h2, h3, h4⟩ := oasSource_of ([sym "name", sym "shop", nl, sym "x_server", punct .equals, str "", nl] ++ getAt "/foo")
    (fun s => completeB s && mget s.annotations "x_server" == some "") (by decide +kernel) (by decide +kernel)
  rw [Bool.and_eq_true] at h2
  refine ⟨m, d, h1, h3, complete_of h2.1, fun L => ?_⟩
  obtain ⟨text, j, t1, t2, t3⟩ := h4 L
  exact ⟨text, j, t1, t2, fun h => (t3.1 h).2 (by simpa using h2.2)⟩

end Sadl.Props
