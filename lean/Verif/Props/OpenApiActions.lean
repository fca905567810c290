import Verif.Lemmas.OpenApiTrip
import Verif.Props.OpenApiTypes
/-
C63: HTTP actions survive the export to OpenAPI and the import from it.
-/
namespace Sadl.Props
open Sadl Sadl.Spec

/-- C63 (part): a model whose types and actions are all kept comes back from the exported document with the same types and the
same actions, in some order.  The document may have been written and read again, which changes the order of its maps.
Missing: the actions that `OasActionKept` excludes, for which the property is false, see below. -/
theorem C63_actions_partial (lib : OLib) (hord : ∀ l, (lib.order l).Perm l) (m : Model) (hm : newModel m.schema = .ok m) (d d' : ODoc)
    (hd : Exports lib m (.ok d)) (hk : ∀ td ∈ m.schema.types, td.name ≠ "" ∧ TypeKept lib m.schema td.ts)
    (hh : ∀ h ∈ m.schema.http, OasActionKept lib m.schema h)
    (hc : SameSchemas d.schemas d'.schemas) (hp : SamePaths d.paths d'.paths) (name : String) :
    ∃ m' tds hs, toSadl d' name = .ok m' ∧
      tds.Perm m.schema.types ∧ List.Forall₂ SameDef tds m'.schema.types ∧
      hs.Perm m.schema.http ∧ List.Forall₂ (OasSameAction m.schema.base) hs m'.schema.http := by
  obtain ⟨tds, tds', exs, h1, h2, h3⟩ := C47_types_partial lib hord m hm d hd hk d'.schemas hc
  obtain ⟨n, hn⟩ := exports_run hd
  obtain ⟨hs, hs', exs', h6, h7, h8⟩ := oas_actions_back hm hord hn hh hp
  obtain ⟨h4, h5, hnd, _⟩ := (newModel_ok_iff _ _).1 hm
  have hnames : tds'.map (·.name) = tds.map (·.name) := by
    clear h1 h2
    induction h3 with
    | nil => rfl
    | cons a _ ih => simp only [List.map_cons, a.name, ih]
  have hhnames : hs'.map (·.name) = hs.map (·.name) := by
    clear h6 h7
    induction h8 with
    | nil => rfl
    | cons a _ ih => simp only [List.map_cons, a.name, ih]
  unfold toSadl
  simp only [h1, h6, Out.bind]
  refine ⟨_, tds, hs, (newModel_ok_iff _ _).2 ⟨?_, ?_, ?_, rfl⟩, h2, h3, h7, h8⟩
  · dsimp only
    rw [hnames]
    exact ((h2.map _).nodup_iff).2 h4
  · intro td' htd'
    have : td'.name ∈ tds'.map (·.name) := List.mem_map_of_mem htd'
    rw [hnames] at this
    obtain ⟨td, k1, k2⟩ := List.mem_map.1 this
    rw [← k2]
    exact h5 td (h2.mem_iff.1 k1)
  · dsimp only
    rw [hhnames]
    exact ((h7.map _).nodup_iff).2 hnd

/-! ### An example -/

/-- A schema of kept types and actions. -/
def desk : Schema :=
  { name := "desk", base := "/v1",
    types :=
      [{ name := "Ticket", ts := { type := "Struct", fields := [{ name := "id", required := true, ts := { type := "String" } }] } },
       { name := "NotFound", ts := { type := "Struct", fields := [{ name := "message", ts := { type := "String" } }] } }],
    http :=
      [{ method := "GET", path := "/tickets/{id}?full={full}&depth={depth}", name := "getTicket", resource := "Ticket",
         annotations := [("x_tags", "a,b")], comment := "reads a ticket",
         inputs := [{ field := { name := "id", required := true, ts := { type := "String" } }, path := true },
                    { field := { name := "full", ts := { type := "Bool" } }, query := "full" },
                    { field := { name := "depth", ts := { type := "Int32" } }, query := "depth" },
                    { field := { name := "IfNoneMatch", ts := { type := "String" } }, header := "If-None-Match" }],
         expected := some { status := 200, comment := "the ticket",
                            outputs := [{ field := { name := "body", ts := { type := "Ticket" } } },
                                        { field := { name := "Etag", comment := "a hash", ts := { type := "String" } }, header := "X-Etag" }] },
         exceptions := [{ type := "NotFound", status := 404, comment := "not there" }, { type := "NotFound", status := 0 }] },
       { method := "PUT", path := "/tickets/{id}", name := "putTicket",
         inputs := [{ field := { name := "body", required := true, ts := { type := "Ticket" } } },
                    { field := { name := "id", required := true, ts := { type := "String" } }, path := true }],
         expected := some { status := 204 } }] }

theorem desk_types : ∀ td ∈ desk.types, td.name ≠ "" ∧ TypeKept plainO desk td.ts := by
  intro td h
  simp only [desk, List.mem_cons, List.not_mem_nil, or_false] at h
  rcases h with rfl | rfl <;> refine ⟨by simp, .struct (by decide) fun f hf => ?_⟩ <;>
    simp only [List.mem_cons, List.not_mem_nil, or_false] at hf <;> subst hf <;>
    exact ⟨rfl, rfl, rfl, .string ⟨by simp, by simp⟩⟩

theorem desk_actions : ∀ h ∈ desk.http, OasActionKept plainO desk h := by
  have ticket : desk.types[0] ∈ desk.types := by simp [desk]
  intro h hh
  simp only [desk, List.mem_cons, List.not_mem_nil, or_false] at hh
  rcases hh with rfl | rfl
  · refine ⟨by decide, .inr ⟨by simp, 'a', [',', 'b'], rfl, by decide⟩, ⟨"/tickets/{id}", by decide, by decide, by decide +kernel, ?_⟩, by decide, ?_, by decide, by decide⟩
    · intro p hp
      simp only [List.mem_cons, List.not_mem_nil, or_false] at hp
      rcases hp with rfl | rfl | rfl | rfl
      · exact ⟨⟨rfl, rfl⟩, fun _ => ⟨rfl, rfl, by decide +kernel, ⟨"/tickets/".toList, [], by decide⟩⟩, by simp, by simp, fun _ => .base (by simp), by simp [BodyInput]⟩
      · exact ⟨⟨rfl, rfl⟩, by simp, fun _ => ⟨rfl, rfl, by decide +kernel⟩, by simp, fun _ => .base (by simp), by simp [BodyInput]⟩
      · exact ⟨⟨rfl, rfl⟩, by simp, fun _ => ⟨rfl, rfl, by decide +kernel⟩, by simp, fun _ => .base (by simp), by simp [BodyInput]⟩
      · exact ⟨⟨rfl, rfl⟩, by simp, by simp, fun _ => by decide +kernel, fun _ => .base (by simp), by simp [BodyInput]⟩
    · refine ⟨_, rfl, by decide, by decide, ?_, by decide⟩
      intro p hp
      simp only [List.mem_cons, List.not_mem_nil, or_false] at hp
      rcases hp with rfl | rfl
      · exact ⟨⟨rfl, rfl⟩, ⟨rfl, rfl⟩, by simp, fun _ => ⟨rfl, rfl⟩, .named ticket (by simp [desk])⟩
      · exact ⟨⟨rfl, rfl⟩, ⟨rfl, rfl⟩, fun _ => by decide +kernel, by simp, .string ⟨by simp, by simp⟩⟩
  · refine ⟨by decide, .inl rfl, ⟨"/tickets/{id}", by decide, by decide, by decide +kernel, ?_⟩, by decide, ?_, by decide, by decide⟩
    · intro p hp
      simp only [List.mem_cons, List.not_mem_nil, or_false] at hp
      rcases hp with rfl | rfl
      · exact ⟨⟨rfl, rfl⟩, by simp, by simp, by simp, by simp [BodyInput], fun _ => ⟨by simp, rfl, _, ticket, by simp [desk], rfl⟩⟩
      · exact ⟨⟨rfl, rfl⟩, fun _ => ⟨rfl, rfl, by decide +kernel, ⟨"/tickets/".toList, [], by decide⟩⟩, by simp, by simp, fun _ => .base (by simp), by simp [BodyInput]⟩
    · exact ⟨_, rfl, by decide, by decide, by simp, by decide⟩

theorem SameMap.refl {α : Type} {R : α → α → Prop} {m : GoMap α} (h : m.Distinct) (hR : ∀ k v, (k, v) ∈ m → R v v) : SameMap R m m := by
  refine ⟨h, fun k => ?_⟩
  cases hk : mget m k with
  | none => exact .none
  | some v => exact .some (hR k v (mget_mem hk))

/-- The maps of an operation have each key once. -/
def soundOp (op : OOperation) : Bool :=
  (op.requestBody.all fun b => decide (b.content.map (·.1)).Nodup) && decide (op.responses.map (·.1)).Nodup &&
  op.responses.all fun r => decide (r.2.headers.map (·.1)).Nodup && decide (r.2.content.map (·.1)).Nodup

def soundPaths (ps : GoMap OPathItem) : Bool :=
  decide (ps.map (·.1)).Nodup && ps.all fun p => [OMethod.get, .put, .post, .delete, .head, .patch].all fun k => (p.2.op k).all soundOp

theorem samePaths_refl {ps : GoMap OPathItem} (h : soundPaths ps = true) : SamePaths ps ps := by
  unfold soundPaths at h
  simp only [Bool.and_eq_true, decide_eq_true_eq, List.all_eq_true] at h
  refine SameMap.refl h.1 fun p pi hp k => ?_
  have hk := h.2 _ hp k (by cases k <;> simp)
  cases hop : pi.op k with
  | none => exact .none
  | some op =>
    rw [hop] at hk
    simp only [soundOp, Option.all_some, Bool.and_eq_true, decide_eq_true_eq, List.all_eq_true] at hk
    obtain ⟨⟨h1, h2⟩, h3⟩ := hk
    refine .some ⟨rfl, rfl, rfl, List.forall₂_same.2 fun p _ => by cases p; rfl, ?_, SameMap.refl h2 fun c r hr => ?_⟩
    · cases hb : op.requestBody with
      | none => exact .none
      | some b =>
        rw [hb] at h1
        exact .some ⟨rfl, rfl, SameMap.refl (show (List.map _ _).Nodup by simpa using h1) fun _ _ _ => rfl⟩
    · exact ⟨rfl, SameMap.refl (h3 _ hr).1 fun _ _ _ => rfl, SameMap.refl (h3 _ hr).2 fun _ _ _ => rfl⟩

/-- The example is exported and imported again. -/
example : ∃ m d m' tds hs, m.schema = desk ∧ Exports plainO m (.ok d) ∧ toSadl d "desk" = .ok m' ∧ tds.Perm desk.types ∧
    List.Forall₂ SameDef tds m'.schema.types ∧ hs.Perm desk.http ∧ List.Forall₂ (OasSameAction "/v1") hs m'.schema.http := by
  have h : exportsB plainO desk 5 (fun d => soundPaths d.paths) = true := by decide +kernel
  unfold exportsB at h
  split at h
  · next m hm =>
    have hs : m.schema = desk := by obtain ⟨_, _, _, rfl⟩ := (newModel_ok_iff _ _).1 hm; rfl
    split at h
    · next d hd =>
      have hd' : Exports plainO m (.ok d) := ⟨by simp, 5, hd⟩
      have same : SameSchemas d.schemas d.schemas := by
        refine ⟨d.schemas, .rfl, List.forall₂_same.2 fun e _ => ⟨rfl, ⟨by cases e.2; rfl, .rfl⟩⟩⟩
      obtain ⟨m', tds, hs', h1, h2, h3, h4, h5⟩ := C63_actions_partial plainO (fun _ => .rfl) m (hs ▸ hm) d d hd' (hs ▸ desk_types)
        (hs ▸ desk_actions) same (samePaths_refl h) "desk"
      rw [hs] at h2 h4 h5
      exact ⟨m, d, m', tds, hs', hs, hd', h1, h2, h3, h4, h5⟩
    · simp at h
  · simp at h

/-! ### What is false -/

def oasActionChangesB (q : HttpDef → Bool) (m : Model) : Bool :=
  m.schema.http.any q &&
  match reimported plainO 9 m with
  | some m' => m'.schema.http.all (fun h => !q h)
  | none => false

/-- Some accepted source defines an action with the property `q`, and after export and import none has it. -/
def OasActionChanges (q : HttpDef → Bool) : Prop :=
  ∃ m d m' h, Accepted noLib m ∧ Exports plainO m (.ok d) ∧ toSadl d "" = .ok m' ∧ h ∈ m.schema.http ∧ q h = true ∧
    ∀ h' ∈ m'.schema.http, q h' = false

theorem oasActionChanges_of (toks : List Token) (q : HttpDef → Bool) (h1 : toks.all (fun t => decide (t.type = .symbol → t.text ≠ "")) = true)
    (h : accepts noLib toks (oasActionChangesB q) = true) : OasActionChanges q := by
  obtain ⟨m, hm, h⟩ := accepted_of noLib toks _ h1 h
  unfold oasActionChangesB reimported at h
  rw [Bool.and_eq_true] at h
  obtain ⟨h2, h⟩ := h
  obtain ⟨h0, h3, h4⟩ := List.any_eq_true.1 h2
  cases hd : exportOasN 9 plainO m with
  | ok d =>
    rw [hd] at h
    dsimp only at h
    cases hs : toSadl d "" with
    | ok m' =>
      rw [hs] at h
      refine ⟨m, d, m', h0, hm, ⟨by simp, 9, hd⟩, hs, h3, h4, fun h' hh' => ?_⟩
      have := List.all_eq_true.1 h h' hh'
      simpa using this
    | _ => rw [hs] at h; simp at h
  | _ => rw [hd] at h; simp at h

/-- An action on `Foo`: its method, path, options, inputs and the output of the expected response. -/
def oasAct (pre : List Token) (method path : String) (opts ins out : List Token) : List Token :=
  pre ++ [sym "type", sym "Foo", sym "Struct", punct .openBrace, punct .closeBrace, nl,
    sym "http", sym method, str path, punct .openParen, sym "operation", punct .equals, sym "getFoo"] ++ opts ++ [punct .closeParen,
    punct .openBrace, nl] ++ ins ++
  [sym "expect", num "200", punct .openBrace, nl] ++ out ++ [punct .closeBrace, nl, punct .closeBrace, nl]

/-- C63 is false: an action with another method than GET, PUT, POST and DELETE is lost. -/
theorem C63_refuted_method (method : String) (h : method ∈ ["PATCH", "HEAD"]) : OasActionChanges (fun h => h.method == method) := by
  simp only [List.mem_cons, List.not_mem_nil, or_false] at h
  rcases h with rfl | rfl
  · exact oasActionChanges_of (oasAct [] "PATCH" "/foo" [] [] [sym "foo", sym "Foo", nl]) _ (by decide +kernel) (by decide +kernel)
  · exact oasActionChanges_of (oasAct [] "HEAD" "/foo" [] [] [sym "foo", sym "Foo", nl]) _ (by decide +kernel) (by decide +kernel)

/-- C63 is false: the base path becomes part of the path of the action. -/
theorem C63_refuted_base : OasActionChanges (fun h => h.path == "/foo") :=
  oasActionChanges_of (oasAct [sym "base", str "/v1", nl] "GET" "/foo" [] [] [sym "foo", sym "Foo", nl]) _ (by decide +kernel) (by decide +kernel)

/-- C63 is false: a parameter loses the digits of its name. -/
theorem C63_refuted_digits : OasActionChanges (fun h => h.inputs.any (·.field.name == "n1")) :=
  oasActionChanges_of (oasAct [] "GET" "/foo?n1={n1}" [] [sym "n1", sym "String", nl] [sym "foo", sym "Foo", nl]) _ (by decide +kernel) (by decide +kernel)

/-- C63 is false: a 64 bit parameter becomes a 32 bit one. -/
theorem C63_refuted_int64 : OasActionChanges (fun h => h.inputs.any (·.field.ts.type == "Int64")) :=
  oasActionChanges_of (oasAct [] "GET" "/foo?n={n}" [] [sym "n", sym "Int64", nl] [sym "foo", sym "Foo", nl]) _ (by decide +kernel) (by decide +kernel)

/-- C63 is false: a parameter with a timestamp becomes a string. -/
theorem C63_refuted_timestamp : OasActionChanges (fun h => h.inputs.any (·.field.ts.type == "Timestamp")) :=
  oasActionChanges_of (oasAct [] "GET" "/foo?n={n}" [] [sym "n", sym "Timestamp", nl] [sym "foo", sym "Foo", nl]) _ (by decide +kernel) (by decide +kernel)

/-- C63 is false: the required body of a response is no longer required. -/
theorem C63_refuted_required_output : OasActionChanges (fun h => match h.expected with
    | some e => e.outputs.any (·.field.required) | none => false) :=
  oasActionChanges_of (oasAct [] "GET" "/foo" [] [] [sym "foo", sym "Foo", nl]) _ (by decide +kernel) (by decide +kernel)

/-- C63 is false: the body of a request is renamed. -/
theorem C63_refuted_body : OasActionChanges (fun h => h.inputs.any (·.field.name == "foo")) :=
  oasActionChanges_of (oasAct [] "PUT" "/foo" [] [sym "foo", sym "Foo", nl] [sym "foo", sym "Foo", nl]) _ (by decide +kernel) (by decide +kernel)

/-- C63 is false: a body whose type is not a defined one is lost. -/
theorem C63_refuted_inline_body : OasActionChanges (fun h => h.inputs.any BodyInput) :=
  oasActionChanges_of (oasAct [] "PUT" "/foo" [] [sym "foo", sym "String", nl] [sym "foo", sym "Foo", nl]) _ (by decide +kernel) (by decide +kernel)

/-- C63 is false: tags without a resource become a resource. -/
theorem C63_refuted_tags : OasActionChanges (fun h => h.resource == "") :=
  oasActionChanges_of (oasAct [] "GET" "/foo" [punct .comma, sym "x_tags", punct .equals, str "a,b"] [] [sym "foo", sym "Foo", nl]) _ (by decide +kernel) (by decide +kernel)

/-- C63 is false: the import of the exported document of an accepted source panics, if the name of a path parameter has a digit. -/
theorem C63_refuted_panic : ∃ m d e, Accepted noLib m ∧ Exports plainO m (.ok d) ∧ toSadl d "" = .panic e := by
  obtain ⟨m, hm, h⟩ := accepted_of noLib (oasAct [] "GET" "/foo/{id1}" [] [sym "id1", sym "String", nl] [sym "foo", sym "Foo", nl])
    (fun m => match exportOasN 9 plainO m with
      | .ok d => (match toSadl d "" with | .panic _ => true | _ => false)
      | _ => false) (by decide +kernel) (by decide +kernel)
  cases hd : exportOasN 9 plainO m with
  | ok d =>
    rw [hd] at h
    dsimp only at h
    cases hs : toSadl d "" with
    | panic e => exact ⟨m, d, e, hm, ⟨by simp, 9, hd⟩, hs⟩
    | _ => rw [hs] at h; simp at h
  | _ => rw [hd] at h; simp at h

end Sadl.Props
