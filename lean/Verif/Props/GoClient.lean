import Verif.Lemmas.GoClientRun
import Verif.Props.GoServer
/-
C86, C87, C88: the Go client generated from an accepted source.
-/
namespace Sadl.Props
open Sadl Sadl.Spec

/-! ### C86 -/

/-- C86: a client is generated for an accepted source exactly when each of the actions can be
called. -/
theorem C86_generates_iff (lib : PLib) (m : Model) (h : Accepted lib m) (conf : GoConf) :
    (∃ cl, goClient m conf = .ok cl) ↔ ∀ hd ∈ m.schema.http, GoCallable hd := by
  constructor
  · rintro ⟨cl, hs⟩
    exact ((goClient_ok_iff (accepted_newModel h) (accepted_named h) conf cl).1 hs).1
  · intro hr
    exact ⟨_, (goClient_ok_iff (accepted_newModel h) (accepted_named h) conf _).2 ⟨hr, rfl⟩⟩

/-- C86: when a client cannot be generated, an error is reported; the generator does not crash. -/
theorem C86_no_crash (m : Model) (conf : GoConf) (e : String) : goClient m conf ≠ .panic e :=
  goTemplate_noPanic _ e

/-- C86: a generated client has one method for each action, in order, which sends requests with the method of the action to
the path of the action. -/
theorem C86_mirrors (lib : PLib) (m : Model) (h : Accepted lib m) (conf : GoConf) (cl : GoClient) (hs : goClient m conf = .ok cl) :
    cl.pkg = conf.pkg ∧ cl.name = capitalize conf.name ++ "Client" ∧
    List.Forall₂ (fun hd c => c.method = capitalize hd.name ∧ c.verb = hd.method ∧ ∃ q, PathAndQuery hd.path.toList c.path.toList q) m.schema.http cl.calls := by
  obtain ⟨_, rfl⟩ := (goClient_ok_iff (accepted_newModel h) (accepted_named h) conf cl).1 hs
  refine ⟨rfl, rfl, ?_⟩
  refine List.forall₂_map_right_iff.2 (List.forall₂_same.2 fun h _ => ⟨rfl, rfl, queryPart h.path.toList, ?_⟩)
  change PathAndQuery _ (String.ofList (pathPart h.path.toList)).toList _
  rw [String.toList_ofList]
  exact pathAndQuery _

/-! ### C87 -/

/-- C87: the types and the client generated from an accepted source, for a service whose name is capitalized and not that of a
built-in type, respect the rules of Go exactly when the schema is sound for types and for a client. -/
theorem C87_compiles_iff (lib : PLib) (m : Model) (h : Accepted lib m) (conf : GoConf) (server : Bool) (hc : conf.name ∉ BaseTypes)
    (hcap : capitalize conf.name = conf.name) (f : GoFile) (hf : goModel m conf = .ok f) (cl : GoClient) (hs : goClient m conf = .ok cl) :
    GoCompiles f ∧ GoClientCompiles f server cl ↔ GoSound conf.name conf.runtime m.schema ∧ GoClientSound conf.name conf.runtime server m.schema := by
  have hm := accepted_newModel h
  have hne := accepted_named h
  have h65 := C65_compiles_iff lib m h conf hc f hf
  obtain ⟨hr, rfl⟩ := (goModel_ok_iff hm hne conf f).1 hf
  obtain ⟨hcall, rfl⟩ := (goClient_ok_iff hm hne conf cl).1 hs
  have h87 := fun hsound => client_compiles_iff hm hr hcap server hsound hcall (C53_accepted_valid lib m h).http
    (fun x hx => method_quotable (accepted_http h x hx).method)
  constructor
  · rintro ⟨h1, h2⟩
    exact ⟨h65.1 h1, (h87 (h65.1 h1)).1 h2⟩
  · rintro ⟨h1, h2⟩
    exact ⟨h65.2 h1, (h87 h1).2 h2⟩

/-- The client, if it is generated. -/
def goClient? (m : Model) (conf : GoConf) : Option GoClient :=
  match goClient m conf with
  | .ok c => some c
  | _ => none

theorem client_of (lib : PLib) (toks : List Token) (conf : GoConf) (f : GoFile) (cl : GoClient) (p : Model → Bool)
    (h1 : toks.all (fun t => decide (t.type = .symbol → t.text ≠ "")) = true)
    (h : accepts lib toks (fun m => goFile? m conf == some f && (goClient? m conf == some cl && p m)) = true) :
    ∃ m, Accepted lib m ∧ goModel m conf = .ok f ∧ goClient m conf = .ok cl ∧ p m = true := by
  obtain ⟨m, h2, h3⟩ := accepted_of lib toks _ h1 h
  refine ⟨m, h2, ?_⟩
  rw [Bool.and_eq_true, Bool.and_eq_true, beq_iff_eq, beq_iff_eq] at h3
  obtain ⟨h4, h5, h6⟩ := h3
  unfold goFile? at h4
  unfold goClient? at h5
  split at h4
  · next e he =>
    split at h5
    · next e' he' => injection h4 with h4; injection h5 with h5; rw [he, he', h4, h5]; exact ⟨rfl, rfl, h6⟩
    · cases h5
  · cases h4

/-- The file of types for a service Crudl, with the type Item and an action. -/
def crudlFile (req res : List GoField) (more : List GoDecl) : GoFile :=
  ⟨"", ["encoding/json", "fmt", "strings", "time"],
   [.iface "Crudl" ["DoIt"], .struct "DoItRequest" req, .struct "DoItResponse" res, .heading "Item",
    .struct "Item" [⟨"Created", .ptr (.ident "Timestamp"), "created", true⟩]] ++ more ++ [.timestamp]⟩

/-- A client with one method. -/
def oneClient (name : String) (c : GoCall) : GoClient := ⟨"", goClientImports, name, [c]⟩

/-- The field of an entity. -/
def itemField : GoField := ⟨"Item", .ptr (.ident "Item"), "item", false⟩

/-- C87 is false: the client of a service that is not called Crudl has a function that returns a type that is not declared. -/
theorem C87_refuted_service : ∃ m, Accepted noLib m ∧ ∃ f cl, goModel m { name := "Svc" } = .ok f ∧
    goClient m { name := "Svc" } = .ok cl ∧ GoCompiles f ∧ ∀ server, ¬ GoClientCompiles f server cl := by
  obtain ⟨m, h1, h2, h3, _⟩ := client_of noLib (itemSource ++ actionSource "GET" "/items" [expectSource "200" [[sym "item", sym "Item"]]])
    { name := "Svc" } (itemFile [] [itemField] [])
    (oneClient "SvcClient" ⟨"DoIt", "/items", [], "GET", none, false, 200, [.body "Item" (.ptr (.ident "Item"))], []⟩) (fun _ => true)
    (by decide +kernel) (by decide +kernel)
  refine ⟨m, h1, _, _, h2, h3, GoChecked.compiles (rank := fun n => if n = "string" then 0 else 1) (by decide +kernel), fun s h => ?_⟩
  rcases h.newClient with h | ⟨fs, h, _⟩
  · exact absurd h (by decide)
  · simp [itemFile] at h

/-- C87 is false: when nothing is decoded from the body of a response, a package is imported and not used. -/
theorem C87_refuted_unused : ∃ m, Accepted noLib m ∧ ∃ f cl, goModel m { name := "Crudl" } = .ok f ∧
    goClient m { name := "Crudl" } = .ok cl ∧ GoCompiles f ∧ ∀ server, ¬ GoClientCompiles f server cl := by
  obtain ⟨m, h1, h2, h3, _⟩ := client_of noLib (itemSource ++ actionSource "DELETE" "/items" [[sym "expect", num "204"]])
    { name := "Crudl" } (crudlFile [] [] []) (oneClient "CrudlClient" ⟨"DoIt", "/items", [], "DELETE", none, false, 204, [], []⟩) (fun _ => true)
    (by decide +kernel) (by decide +kernel)
  refine ⟨m, h1, _, _, h2, h3, GoChecked.compiles (rank := fun n => if n = "string" then 0 else 1) (by decide +kernel), fun s h => ?_⟩
  obtain ⟨c, hc, hp⟩ := (h.packages "encoding/json").1 (by decide)
  rw [List.mem_singleton.1 hc] at hp
  exact absurd hp (by decide)

/-- C87 is false: two exceptions with one status are two cases with one value. -/
theorem C87_refuted_status : ∃ m, Accepted noLib m ∧ ∃ f cl, goModel m { name := "Crudl" } = .ok f ∧
    goClient m { name := "Crudl" } = .ok cl ∧ GoCompiles f ∧ ∀ server, ¬ GoClientCompiles f server cl := by
  obtain ⟨m, h1, h2, h3, _⟩ := client_of noLib
    (itemSource ++ [sym "type", sym "NotFound", sym "Struct", punct .openBrace, nl, sym "message", sym "String", nl, punct .closeBrace, nl] ++
      actionSource "GET" "/items" [expectSource "200" [[sym "item", sym "Item"]], [sym "except", num "404", sym "NotFound"], [sym "except", num "404", sym "Item"]])
    { name := "Crudl" } (crudlFile [] [itemField]
      [.errorMethod "Item", .heading "NotFound", .struct "NotFound" [⟨"Message", .ident "string", "message", true⟩], .errorMethod "NotFound"])
    (oneClient "CrudlClient" ⟨"DoIt", "/items", [], "GET", none, false, 200, [.body "Item" (.ptr (.ident "Item"))],
      [(.ptr (.ident "NotFound"), 404), (.ptr (.ident "Item"), 404)]⟩) (fun _ => true) (by decide +kernel) (by decide +kernel)
  refine ⟨m, h1, _, _, h2, h3, GoChecked.compiles (rank := fun n => if n = "string" then 0 else 1) (by decide +kernel), fun s h => ?_⟩
  exact absurd (h.calls _ (List.mem_singleton.2 rfl)).casesOnce (by decide)

/-- C87 is false: a decimal number in the query is compared with `0.0`, which has another type. -/
theorem C87_refuted_query : ∃ m, Accepted noLib m ∧ ∃ f cl, goModel m { name := "Crudl" } = .ok f ∧
    goClient m { name := "Crudl" } = .ok cl ∧ GoCompiles f ∧ ∀ server, ¬ GoClientCompiles f server cl := by
  obtain ⟨m, h1, h2, h3, _⟩ := client_of noLib
    (itemSource ++ actionSource "GET" "/items?price={price}" [[sym "price", sym "Decimal"], expectSource "200" [[sym "item", sym "Item"]]])
    { name := "Crudl" }
    ⟨"", ["encoding/json", "fmt", "strings", "time", "math/big"],
      [.iface "Crudl" ["DoIt"], .struct "DoItRequest" [⟨"Price", .ptr (.ident "Decimal"), "price", true⟩], .struct "DoItResponse" [itemField],
       .heading "Item", .struct "Item" [⟨"Created", .ptr (.ident "Timestamp"), "created", true⟩], .timestamp, .decimal]⟩
    (oneClient "CrudlClient" ⟨"DoIt", "/items", [⟨"Price", "0.0", "price", "&g"⟩], "GET", none, false, 200, [.body "Item" (.ptr (.ident "Item"))], []⟩)
    (fun _ => true) (by decide +kernel) (by decide +kernel)
  refine ⟨m, h1, _, _, h2, h3, GoChecked.compiles (rank := fun n => if n = "string" then 0 else 1) (by decide +kernel), fun s h => ?_⟩
  obtain ⟨fs, g1, g2, _⟩ := (h.calls _ (List.mem_singleton.2 rfl)).request
  simp only [List.mem_cons, GoDecl.struct.injEq, reduceCtorEq, false_or, List.not_mem_nil, or_false] at g1
  obtain ⟨fd, g3, g4, g5⟩ := g2 ⟨"Price", "0.0", "price", "&g"⟩ (by decide)
  rcases g1 with ⟨_, rfl⟩ | ⟨g1, _⟩ | ⟨g1, _⟩
  · rw [List.mem_singleton.1 g3] at g5
    generalize hz : "0.0" = z at g5
    cases g5 with
    | pointer => exact absurd hz (by decide)
  · exact absurd g1 (by decide)
  · exact absurd g1 (by decide)

/-- C87 is false: a header that is a number is assigned as a text. -/
theorem C87_refuted_header : ∃ m, Accepted noLib m ∧ ∃ f cl, goModel m { name := "Crudl" } = .ok f ∧
    goClient m { name := "Crudl" } = .ok cl ∧ GoCompiles f ∧ ∀ server, ¬ GoClientCompiles f server cl := by
  obtain ⟨m, h1, h2, h3, _⟩ := client_of noLib
    (itemSource ++ actionSource "GET" "/items" [expectSource "200" [[sym "item", sym "Item"], headerSource "count" "Int32" "X-Count"]])
    { name := "Crudl" } (crudlFile [] [itemField, ⟨"Count", .ident "int32", "count", true⟩] [])
    (oneClient "CrudlClient" ⟨"DoIt", "/items", [], "GET", none, false, 200,
      [.body "Item" (.ptr (.ident "Item")), .header "Count" "X-Count" false], []⟩) (fun _ => true) (by decide +kernel) (by decide +kernel)
  refine ⟨m, h1, _, _, h2, h3, GoChecked.compiles (rank := fun n => if n = "string" ∨ n = "int32" then 0 else 1) (by decide +kernel), fun s h => ?_⟩
  obtain ⟨fs, g1, g2⟩ := (h.calls _ (List.mem_singleton.2 rfl)).response
  obtain ⟨fd, g3, g4, g5⟩ := g2 (.header "Count" "X-Count" false) (by decide)
  have g6 : fs = [itemField, ⟨"Count", .ident "int32", "count", true⟩] := by simpa [crudlFile] using g1
  subst g6
  have : ∀ fd ∈ [itemField, ⟨"Count", .ident "int32", "count", true⟩], fd.name = "Count" → fd.type ≠ .ident "string" := by decide +kernel
  exact this fd g3 g4 g5

/-- C87 is false: a client that sends a body, and is generated without a server, uses a function that is not declared. -/
theorem C87_refuted_body : ∃ m, Accepted noLib m ∧ ∃ f cl, goModel m { name := "Crudl" } = .ok f ∧
    goClient m { name := "Crudl" } = .ok cl ∧ GoCompiles f ∧ ¬ GoClientCompiles f false cl := by
  obtain ⟨m, h1, h2, h3, _⟩ := client_of noLib
    (itemSource ++ actionSource "PUT" "/items" [[sym "item", sym "Item"], expectSource "200" [[sym "item", sym "Item"]]])
    { name := "Crudl" } (crudlFile [⟨"Item", .ptr (.ident "Item"), "item", true⟩] [itemField] [])
    ⟨"", ["encoding/json", "fmt", "net/http", "strings", "bytes"], "CrudlClient",
      [⟨"DoIt", "/items", [], "PUT", some "Item", true, 200, [.body "Item" (.ptr (.ident "Item"))], []⟩]⟩ (fun _ => true)
    (by decide +kernel) (by decide +kernel)
  refine ⟨m, h1, _, _, h2, h3, GoChecked.compiles (rank := fun n => if n = "string" then 0 else 1) (by decide +kernel), fun h => ?_⟩
  exact absurd (h.toJson ⟨_, List.mem_singleton.2 rfl, by simp⟩) (by decide)

/-! ### C88 -/

/-- C88: what the methods of a generated client send and give back, when types and client respect the rules of Go: the request
that `SentFor` describes and no other, and for each response what `ReadFor` describes and nothing else. -/
theorem C88_calls (lib : PLib) (m : Model) (h : Accepted lib m) (conf : GoConf) (server : Bool) (hc : conf.name ∉ BaseTypes)
    (hcap : capitalize conf.name = conf.name) (f : GoFile) (hf : goModel m conf = .ok f) (cl : GoClient) (hs : goClient m conf = .ok cl)
    (h1 : GoCompiles f) (h2 : GoClientCompiles f server cl) :
    List.Forall₂ (fun hd c => c.method = capitalize hd.name ∧
      (∀ target differs sprintf r, SentFor m.schema hd target differs sprintf r ↔ r = RunCall target differs sprintf c) ∧
      ∀ e, hd.expected = some e → ∀ (ρ : Type) (rd : GoReadsBack ρ) status g,
        ReadFor m.schema conf.runtime hd e rd status g ↔ g = ReadReply rd status c) m.schema.http cl.calls := by
  have hm := accepted_newModel h
  have hne := accepted_named h
  obtain ⟨hsound, hcsound⟩ := (C87_compiles_iff lib m h conf server hc hcap f hf cl hs).1 ⟨h1, h2⟩
  obtain ⟨hr, rfl⟩ := (goModel_ok_iff hm hne conf f).1 hf
  obtain ⟨hcall, rfl⟩ := (goClient_ok_iff hm hne conf cl).1 hs
  refine List.forall₂_map_right_iff.2 (List.forall₂_same.2 fun hd hh => ⟨rfl, fun t d s r => call_sends hm hd t d s r, ?_⟩)
  intro e he ρ rd status g
  exact call_reads hm hr (fun td htd => hsound.idents _ (user_named htd)) he (hcall hd hh) ((C53_accepted_valid lib m h).http hd hh)
    (hcsound.called hd hh e he).statuses rd status g

/-- A source with an action that has inputs in the path, the query and a header, an entity, a header and an exception. -/
def clientSource : List Token :=
  itemSource ++ [sym "type", sym "NotFound", sym "Struct", punct .openBrace, nl, sym "message", sym "String", nl, punct .closeBrace, nl] ++
  actionSource "GET" "/items/{name}?max={limit}&ratio={ratio}"
    [[sym "name", sym "String"], [sym "limit", sym "Int32"], [sym "ratio", sym "Float64"], headerSource "since" "Timestamp" "If-Modified-Since",
     expectSource "200" [[sym "item", sym "Item"], headerSource "modified" "Timestamp" "Last-Modified"], [sym "except", num "404", sym "NotFound"]]

def clientFile : GoFile :=
  crudlFile
    [⟨"Name", .ident "string", "name", true⟩, ⟨"Limit", .ident "int32", "limit", true⟩, ⟨"Ratio", .ident "float64", "ratio", true⟩,
     ⟨"Since", .ptr (.ident "Timestamp"), "since", false⟩]
    [itemField, ⟨"Modified", .ptr (.ident "Timestamp"), "modified", true⟩]
    [.heading "NotFound", .struct "NotFound" [⟨"Message", .ident "string", "message", true⟩], .errorMethod "NotFound"]

def clientCall : GoCall :=
  { method := "DoIt", path := "/items/{name}", args := [⟨"Limit", "0", "limit", "%d"⟩, ⟨"Ratio", "0.0", "ratio", "&g"⟩], verb := "GET", body := none,
    json := false, status := 200, outputs := [.body "Item" (.ptr (.ident "Item")), .header "Modified" "Last-Modified" true],
    cases := [(.ptr (.ident "NotFound"), 404)] }

/-- The inputs: the name, whether it is in the path, the parameter in the query, and the header. -/
def wiresOf (m : Model) : List (List (String × Bool × String × String)) :=
  m.schema.http.map fun h => h.inputs.map fun p => (p.field.name, p.path, p.query, p.header)

theorem clientSource_ok : ∃ m, Accepted noLib m ∧ goModel m { name := "Crudl" } = .ok clientFile ∧
    goClient m { name := "Crudl" } = .ok (oneClient "CrudlClient" clientCall) ∧
    wiresOf m = [[("name", true, "", ""), ("limit", false, "max", ""), ("ratio", false, "ratio", ""), ("since", false, "", "If-Modified-Since")]] := by
  obtain ⟨m, h1, h2, h3, h4⟩ := client_of noLib clientSource { name := "Crudl" } clientFile (oneClient "CrudlClient" clientCall)
    (fun m => wiresOf m == [[("name", true, "", ""), ("limit", false, "max", ""), ("ratio", false, "ratio", ""), ("since", false, "", "If-Modified-Since")]])
    (by decide +kernel) (by decide +kernel)
  exact ⟨m, h1, h2, h3, beq_iff_eq.1 h4⟩

theorem clientFile_compiles : GoCompiles clientFile :=
  GoChecked.compiles (rank := fun n => if n = "string" ∨ n = "int32" ∨ n = "float64" then 0 else 1) (by decide +kernel)

theorem client_compiles : GoClientCompiles clientFile false (oneClient "CrudlClient" clientCall) := by
  have hd : ∀ d ∈ clientFile.decls, d ∈ clientFile.decls := fun _ h => h
  refine ⟨?_, by decide +kernel, by decide +kernel, by decide +kernel, ?_, .inl rfl, ?_, by decide +kernel, by decide +kernel⟩
  · exact client_ident (n := "Crudl") (by decide +kernel)
  · intro p
    have e1 : (oneClient "CrudlClient" clientCall).imports = ["encoding/json", "fmt", "net/http", "strings"] := rfl
    have e2 : CallPackages clientCall = ["fmt", "net/http", "strings", "encoding/json", "encoding/json"] := rfl
    constructor
    · intro h
      refine ⟨clientCall, List.mem_singleton.2 rfl, ?_⟩
      rw [e1] at h; rw [e2]
      simp only [List.mem_cons, List.not_mem_nil, or_false] at h ⊢
      tauto
    · rintro ⟨c, hc, h⟩
      rw [List.mem_singleton.1 hc, e2] at h
      rw [e1]
      simp only [List.mem_cons, List.not_mem_nil, or_false] at h ⊢
      tauto
  · intro c hc
    rw [List.mem_singleton.1 hc]
    refine ⟨⟨_, hd (.struct "DoItRequest" _) (.tail _ (.head _)), ?_, by simp [clientCall]⟩,
      ⟨_, hd (.struct "DoItResponse" _) (.tail _ (.tail _ (.head _))), ?_⟩, by decide, ?_, by decide, ?_⟩
    · intro a ha
      simp only [clientCall, List.mem_cons, List.not_mem_nil, or_false] at ha
      rcases ha with rfl | rfl
      · exact ⟨_, .tail _ (.head _), rfl, .integer (.inl (by decide))⟩
      · exact ⟨_, .tail _ (.tail _ (.head _)), rfl, .float (.inl (by decide))⟩
    · intro o ho
      simp only [clientCall, List.mem_cons, List.not_mem_nil, or_false] at ho
      rcases ho with rfl | rfl
      · exact ⟨⟨_, .head _, rfl, rfl⟩, by decide +kernel⟩
      · exact ⟨by decide +kernel, _, .tail _ (.head _), rfl, rfl⟩
    · intro x hx
      simp only [clientCall, List.mem_cons, List.not_mem_nil, or_false] at hx
      subst hx
      exact .pointer (by decide +kernel) (by decide)
    · have : (∀ c ∈ clientCall.path.toList, c ≠ '"' ∧ c ≠ '\\' ∧ c ≠ '\n') ∧ (∀ c ∈ clientCall.verb.toList, c ≠ '"' ∧ c ≠ '\\' ∧ c ≠ '\n') ∧
        ∀ a ∈ clientCall.args, ∀ c ∈ a.name.toList, c ≠ '"' ∧ c ≠ '\\' ∧ c ≠ '\n' := by decide +kernel
      exact this

/-- The hypotheses of C86, C87 and C88 are met by an accepted source whose types and client are generated and respect the
rules of Go, and whose schema is sound. -/
example : ∃ m, Accepted noLib m ∧ ∃ f cl, goModel m { name := "Crudl" } = .ok f ∧ goClient m { name := "Crudl" } = .ok cl ∧
    (GoCompiles f ∧ GoClientCompiles f false cl) ∧ GoSound "Crudl" false m.schema ∧ GoClientSound "Crudl" false false m.schema := by
  obtain ⟨m, h1, h2, h3, _⟩ := clientSource_ok
  exact ⟨m, h1, _, _, h2, h3, ⟨clientFile_compiles, client_compiles⟩,
    (C87_compiles_iff noLib m h1 { name := "Crudl" } false (by decide) (by decide +kernel) _ h2 _ h3).1 ⟨clientFile_compiles, client_compiles⟩⟩

/-- There is a client that compiles, for an action with the input (its name, whether it is in the path, the parameter in the query
and the header), with a method of which the statement is true. -/
def ClientWith (input : String × Bool × String × String) (P : GoCall → Prop) : Prop :=
  ∃ m, Accepted noLib m ∧ ∃ f cl, goModel m { name := "Crudl" } = .ok f ∧ goClient m { name := "Crudl" } = .ok cl ∧
    GoCompiles f ∧ GoClientCompiles f false cl ∧ (∃ inputs ∈ wiresOf m, input ∈ inputs) ∧ ∃ c ∈ cl.calls, P c

theorem clientWith_of (input : String × Bool × String × String) (P : GoCall → Prop)
    (hi : input ∈ [("name", true, "", ""), ("limit", false, "max", ""), ("ratio", false, "ratio", ""), ("since", false, "", "If-Modified-Since")])
    (hp : P clientCall) : ClientWith input P := by
  obtain ⟨m, h1, h2, h3, h4⟩ := clientSource_ok
  exact ⟨m, h1, _, _, h2, h3, clientFile_compiles, client_compiles, ⟨_, by rw [h4]; exact .head _, hi⟩, clientCall, List.mem_singleton.2 rfl, hp⟩

/-- What a user would expect is false: the value of an input in the path is not in the URL, whatever it is. -/
theorem C88_refuted_path : ClientWith ("name", true, "", "") fun c => ∀ target differs sprintf,
    ∃ rest, (RunCall target differs sprintf c).url = target ++ "/items/{name}" ++ rest :=
  clientWith_of _ _ (by decide) fun _ _ _ => ⟨_, rfl⟩

/-- What a user would expect is false: the value of an input in the query is sent under the name of the input, not under that of the
parameter. -/
theorem C88_refuted_query_name : ClientWith ("limit", false, "max", "") fun c => ∀ target sprintf,
    (RunCall target (fun f _ => f = "Limit") sprintf c).url = target ++ "/items/{name}" ++ ("?" ++ ("limit" ++ "=" ++ sprintf "%d" "Limit")) :=
  clientWith_of _ _ (by decide) fun _ _ => rfl

/-- What a user would expect is false: a floating-point number is not written with the format for it, but with one that has no place
for the number. -/
theorem C88_refuted_float : ClientWith ("ratio", false, "ratio", "") fun c => ∀ target sprintf,
    (RunCall target (fun f _ => f = "Ratio") sprintf c).url = target ++ "/items/{name}" ++ ("?" ++ ("ratio" ++ "=" ++ sprintf "&g" "Ratio")) :=
  clientWith_of _ _ (by decide) fun _ _ => rfl

/-- What a user would expect is false: an input in a header is not sent; the request is the same whatever it is. -/
theorem C88_refuted_header : ClientWith ("since", false, "", "If-Modified-Since") fun c => ∀ target differs differs' sprintf sprintf',
    (∀ f, f ≠ "Since" → ∀ z, differs f z = differs' f z ∧ sprintf z f = sprintf' z f) →
    RunCall target differs sprintf c = RunCall target differs' sprintf' c := by
  refine clientWith_of _ _ (by decide) fun target d d' s s' h => ?_
  have h1 := h "Limit" (by decide)
  have h2 := h "Ratio" (by decide)
  unfold RunCall clientCall
  simp only [List.filter_cons, List.filter_nil, (h1 _).1, (h2 _).1]
  cases d' "Limit" "0" <;> cases d' "Ratio" "0.0" <;> simp [(h1 _).2, (h2 _).2]

end Sadl.Props
