import Verif.Lemmas.GoServerRules
import Verif.Lemmas.GoServerRun
import Verif.Lemmas.GoCheck
import Verif.Lemmas.AcceptedHttp
import Verif.Props.Golang
/-
C83, C84, C85: the Go server generated from an accepted source.
-/
namespace Sadl.Props
open Sadl Sadl.Spec

theorem accepted_http {lib : PLib} {m : Model} (h : Accepted lib m) : ∀ x ∈ m.schema.http, ParsedHttp x := by
  obtain ⟨files, n, name, ns, toks, h1, h2, h3⟩ := h
  exact parsedHttp_of_source (fun f m hf => parsedHttp_of_file hf) (by simp [initialSchema]) h1 (parses_iff.1 h3).1

theorem method_quotable {n : String} (h : n ∈ httpMethods) : GoQuotable n := by
  have : ∀ n ∈ httpMethods, ∀ c ∈ n.toList, c ≠ '"' ∧ c ≠ '\\' ∧ c ≠ '\n' := by decide +kernel
  exact this n h

/-! ### C83 -/

/-- C83: a server is generated for an accepted source exactly when each of the actions can be
served. -/
theorem C83_generates_iff (lib : PLib) (m : Model) (h : Accepted lib m) (conf : GoConf) (gl : GoLib) :
    (∃ sv, goServer m conf gl = .ok sv) ↔ ∀ hd ∈ m.schema.http, GoServable m.schema hd := by
  constructor
  · rintro ⟨sv, hs⟩
    exact ((goServer_ok_iff (accepted_newModel h) (accepted_named h) conf gl sv).1 hs).1
  · intro hr
    exact ⟨_, (goServer_ok_iff (accepted_newModel h) (accepted_named h) conf gl _).2 ⟨hr, rfl⟩⟩

/-- C83: when a server cannot be generated, an error is reported; the generator does not crash. -/
theorem C83_no_crash (m : Model) (conf : GoConf) (gl : GoLib) (e : String) : goServer m conf gl ≠ .panic e :=
  goTemplate_noPanic _ e

/-- C83: a generated server has one handler and one route for each action, in order; the route takes the requests with the
method and the path of the action to the handler. -/
theorem C83_mirrors (lib : PLib) (m : Model) (h : Accepted lib m) (conf : GoConf) (gl : GoLib) (sv : GoServer)
    (hs : goServer m conf gl = .ok sv) : sv.pkg = conf.pkg ∧ GoServerMirrors conf.name m.schema sv := by
  obtain ⟨_, rfl⟩ := (goServer_ok_iff (accepted_newModel h) (accepted_named h) conf gl sv).1 hs
  refine ⟨rfl, rfl, ?_, ?_⟩
  · refine List.forall₂_map_right_iff.2 (List.forall₂_same.2 fun h _ => rfl)
  · refine List.forall₂_map_right_iff.2 (List.forall₂_same.2 fun h _ => ⟨rfl, rfl, queryPart h.path.toList, ?_⟩)
    change PathAndQuery _ (String.ofList (pathPart h.path.toList)).toList _
    rw [String.toList_ofList]
    exact pathAndQuery _

/-! ### Sources with one action -/

/-- The source of an action `doIt`. -/
def actionSource (method path : String) (items : List (List Token)) : List Token :=
  [sym "http", sym method, str path, punct .openParen, sym "action", punct .equals, sym "doIt", punct .closeParen, punct .openBrace, nl] ++
    items.flatMap (· ++ [nl]) ++ [punct .closeBrace, nl]

/-- The source `type Item Struct { created Timestamp }`. -/
def itemSource : List Token :=
  [sym "type", sym "Item", sym "Struct", punct .openBrace, nl, sym "created", sym "Timestamp", nl, punct .closeBrace, nl]

/-- The source `expect n { … }`. -/
def expectSource (status : String) (outs : List (List Token)) : List Token :=
  [sym "expect", num status, punct .openBrace, nl] ++ outs.flatMap (· ++ [nl]) ++ [punct .closeBrace]

/-- The source `name type (header="h")`. -/
def headerSource (n t h : String) : List Token := [sym n, sym t, punct .openParen, sym "header", punct .equals, str h, punct .closeParen]

/-- The source of a parameter with a default. -/
def defaultSource (n t : String) (d : Token) : List Token := [sym n, sym t, punct .openParen, sym "default", punct .equals, d, punct .closeParen]

/-- A library that knows the number 10. -/
def tens : PLib := { noLib with parseDecimal := fun t => if t = "10" then some (.fin 5 1) else none }

/-- The server, if it is generated. -/
def goServer? (m : Model) (conf : GoConf) (gl : GoLib) : Option GoServer :=
  match goServer m conf gl with
  | .ok s => some s
  | _ => none

theorem server_of (lib : PLib) (toks : List Token) (conf : GoConf) (gl : GoLib) (f : GoFile) (sv : GoServer)
    (h1 : toks.all (fun t => decide (t.type = .symbol → t.text ≠ "")) = true)
    (h : accepts lib toks (fun m => goFile? m conf == some f && goServer? m conf gl == some sv) = true) :
    ∃ m, Accepted lib m ∧ goModel m conf = .ok f ∧ goServer m conf gl = .ok sv := by
  obtain ⟨m, h2, h3⟩ := accepted_of lib toks _ h1 h
  refine ⟨m, h2, ?_⟩
  rw [Bool.and_eq_true, beq_iff_eq, beq_iff_eq] at h3
  obtain ⟨h4, h5⟩ := h3
  unfold goFile? at h4
  unfold goServer? at h5
  split at h4
  · next e he =>
    split at h5
    · next e' he' => injection h4 with h4; injection h5 with h5; rw [he, he', h4, h5]; exact ⟨rfl, rfl⟩
    · cases h5
  · cases h4

/-- What Go prints; a `*string` is printed as an address. -/
def someGoLib : GoLib := ⟨fun _ => "0xc000012250", fun _ => false, ""⟩

/-- The file of types for a source of the type Item and an action. -/
def itemFile (req res : List GoField) (more : List GoDecl) : GoFile :=
  ⟨"", ["encoding/json", "fmt", "strings", "time"],
   [.iface "Svc" ["DoIt"], .struct "DoItRequest" req, .struct "DoItResponse" res, .heading "Item",
    .struct "Item" [⟨"Created", .ptr (.ident "Timestamp"), "created", true⟩]] ++ more ++ [.timestamp]⟩

/-- A server with one handler. -/
def oneServer (h : GoHandler) (path method : String) : GoServer :=
  ⟨"", goServerImports, "Svc", "svcAdaptor", [h], [⟨path, "DoIt", method⟩]⟩

/-- C83 is false without its condition: a parameter of type `Bool` is accepted, its type is generated, and the server is not. -/
theorem C83_refuted_bool : ∃ m, Accepted noLib m ∧ (∃ f, goModel m { name := "Svc" } = .ok f ∧ GoCompiles f) ∧
    ∃ e, goServer m { name := "Svc" } someGoLib = .err e := by
  obtain ⟨m, h1, h2⟩ := accepted_of noLib
    (itemSource ++ actionSource "GET" "/items?all={all}" [[sym "all", sym "Bool"], expectSource "200" [[sym "item", sym "Item"]]])
    (fun m => goFile? m { name := "Svc" } == some (itemFile [⟨"All", .ident "bool", "all", true⟩] [⟨"Item", .ptr (.ident "Item"), "item", false⟩] []) &&
      goServer? m { name := "Svc" } someGoLib == none) (by decide +kernel) (by decide +kernel)
  rw [Bool.and_eq_true, beq_iff_eq, beq_iff_eq] at h2
  obtain ⟨h4, h5⟩ := h2
  refine ⟨m, h1, ?_, ?_⟩
  · unfold goFile? at h4
    split at h4
    · next e he =>
      injection h4 with h4
      refine ⟨e, he, ?_⟩
      rw [h4]
      exact GoChecked.compiles (rank := fun n => if n = "string" ∨ n = "bool" then 0 else 1) (by decide +kernel)
    · cases h4
  · unfold goServer? at h5
    cases hs : goServer m { name := "Svc" } someGoLib with
    | ok s => rw [hs] at h5; cases h5
    | err e => exact ⟨e, rfl⟩
    | panic e => exact absurd hs (C83_no_crash _ _ _ _)

/-! ### C84 -/

/-- C84: the types and the server generated from an accepted source, for a service whose name is capitalized and not that
of a built-in type, respect the rules of Go exactly when the schema is sound for types and for a server. -/
theorem C84_compiles_iff (lib : PLib) (m : Model) (h : Accepted lib m) (conf : GoConf) (gl : GoLib) (hc : conf.name ∉ BaseTypes)
    (hcap : capitalize conf.name = conf.name) (f : GoFile) (hf : goModel m conf = .ok f) (sv : GoServer) (hs : goServer m conf gl = .ok sv) :
    GoCompiles f ∧ GoServerCompiles f sv ↔ GoSound conf.name conf.runtime m.schema ∧ GoServerSound conf.name conf.runtime m.schema := by
  have hm := accepted_newModel h
  have hne := accepted_named h
  have h65 := C65_compiles_iff lib m h conf hc f hf
  obtain ⟨hr, rfl⟩ := (goModel_ok_iff hm hne conf f).1 hf
  obtain ⟨hserv, rfl⟩ := (goServer_ok_iff hm hne conf gl sv).1 hs
  have h84 := fun hsound => server_compiles_iff hm hr hc hcap gl hsound hserv (C53_accepted_valid lib m h).http
    (fun x hx => (accepted_http h x hx).exceptions) (fun x hx => method_quotable (accepted_http h x hx).method)
  constructor
  · rintro ⟨h1, h2⟩
    exact ⟨h65.1 h1, (h84 (h65.1 h1)).1 h2⟩
  · rintro ⟨h1, h2⟩
    exact ⟨h65.2 h1, (h84 h1).2 h2⟩

/-- C84 is false: with a parameter in the query and status 204, the handler declares no new variable. -/
theorem C84_refuted_no_new_variable : ∃ m, Accepted noLib m ∧ ∃ f sv, goModel m { name := "Svc" } = .ok f ∧
    goServer m { name := "Svc" } someGoLib = .ok sv ∧ GoCompiles f ∧ ¬ GoServerCompiles f sv := by
  obtain ⟨m, h1, h2, h3⟩ := server_of noLib
    (itemSource ++ actionSource "DELETE" "/items?name={name}" [[sym "name", sym "String"], [sym "expect", num "204"]])
    { name := "Svc" } someGoLib (itemFile [⟨"Name", .ident "string", "name", true⟩] [] [])
    (oneServer ⟨"DoIt", true, [.assign "Name" (.conv "string" (.str (.form "name") ""))], "_", [], [], 204, none⟩ "/items" "DELETE")
    (by decide +kernel) (by decide +kernel)
  refine ⟨m, h1, _, _, h2, h3, GoChecked.compiles (rank := fun n => if n = "string" then 0 else 1) (by decide +kernel), fun h => ?_⟩
  simpa [HandlerUses, GoScoped, StepUses] using (h.handlers _ (List.mem_singleton.2 rfl)).scopes

/-- C84 is false: with a parameter in the query and a body, the handler declares `err` twice. -/
theorem C84_refuted_declared_twice : ∃ m, Accepted noLib m ∧ ∃ f sv, goModel m { name := "Svc" } = .ok f ∧
    goServer m { name := "Svc" } someGoLib = .ok sv ∧ GoCompiles f ∧ ¬ GoServerCompiles f sv := by
  obtain ⟨m, h1, h2, h3⟩ := server_of noLib
    (itemSource ++ actionSource "PUT" "/items?name={name}" [[sym "name", sym "String"], [sym "item", sym "Item"], expectSource "200" [[sym "item", sym "Item"]]])
    { name := "Svc" } someGoLib (itemFile [⟨"Name", .ident "string", "name", true⟩, ⟨"Item", .ptr (.ident "Item"), "item", true⟩]
      [⟨"Item", .ptr (.ident "Item"), "item", false⟩] [])
    (oneServer ⟨"DoIt", true, [.assign "Name" (.conv "string" (.str (.form "name") "")), .decode "Item"], "res", [], [], 200, some "Item"⟩ "/items" "PUT")
    (by decide +kernel) (by decide +kernel)
  refine ⟨m, h1, _, _, h2, h3, GoChecked.compiles (rank := fun n => if n = "string" then 0 else 1) (by decide +kernel), fun h => ?_⟩
  simpa [HandlerUses, GoScoped, StepUses] using (h.handlers _ (List.mem_singleton.2 rfl)).scopes

/-- C84 is false: with status 200 and no outputs, the variable `res` is not used. -/
theorem C84_refuted_unused : ∃ m, Accepted noLib m ∧ ∃ f sv, goModel m { name := "Svc" } = .ok f ∧
    goServer m { name := "Svc" } someGoLib = .ok sv ∧ GoCompiles f ∧ ¬ GoServerCompiles f sv := by
  obtain ⟨m, h1, h2, h3⟩ := server_of noLib (itemSource ++ actionSource "GET" "/items" [[sym "expect", num "200"]])
    { name := "Svc" } someGoLib (itemFile [] [] []) (oneServer ⟨"DoIt", false, [], "res", [], [], 200, none⟩ "/items" "GET")
    (by decide +kernel) (by decide +kernel)
  refine ⟨m, h1, _, _, h2, h3, GoChecked.compiles (rank := fun n => if n = "string" then 0 else 1) (by decide +kernel), fun h => ?_⟩
  have := (h.handlers _ (List.mem_singleton.2 rfl)).used ["res", "err"] (by simp [HandlerUses]) "res" (by simp) (by simp)
  simp [HandlerUses] at this

/-- C84 is false: with status 204 and a header, the variable `res` is used and not declared. -/
theorem C84_refuted_undeclared : ∃ m, Accepted noLib m ∧ ∃ f sv, goModel m { name := "Svc" } = .ok f ∧
    goServer m { name := "Svc" } someGoLib = .ok sv ∧ GoCompiles f ∧ ¬ GoServerCompiles f sv := by
  obtain ⟨m, h1, h2, h3⟩ := server_of noLib
    (itemSource ++ actionSource "GET" "/items" [expectSource "204" [headerSource "modified" "Timestamp" "Last-Modified"]])
    { name := "Svc" } someGoLib (itemFile [] [⟨"Modified", .ptr (.ident "Timestamp"), "modified", true⟩] [])
    (oneServer ⟨"DoIt", false, [], "_", [], [("Last-Modified", "Modified")], 204, none⟩ "/items" "GET")
    (by decide +kernel) (by decide +kernel)
  refine ⟨m, h1, _, _, h2, h3, GoChecked.compiles (rank := fun n => if n = "string" then 0 else 1) (by decide +kernel), fun h => ?_⟩
  simpa [HandlerUses, GoScoped, StepUses] using (h.handlers _ (List.mem_singleton.2 rfl)).scopes

/-- C84 is false: without a timestamp in the schema, the server uses types and functions that are not declared. -/
theorem C84_refuted_timestamp : ∃ m, Accepted noLib m ∧ ∃ f sv, goModel m { name := "Svc" } = .ok f ∧
    goServer m { name := "Svc" } someGoLib = .ok sv ∧ GoCompiles f ∧ ¬ GoServerCompiles f sv := by
  obtain ⟨m, h1, h2, h3⟩ := server_of noLib
    (actionSource "GET" "/items" [expectSource "200" [[sym "item", sym "String"]]]) { name := "Svc" } someGoLib
    ⟨"", [], [.iface "Svc" ["DoIt"], .struct "DoItRequest" [], .struct "DoItResponse" [⟨"Item", .ident "string", "item", false⟩]]⟩
    (oneServer ⟨"DoIt", false, [], "res", [], [], 200, some "Item"⟩ "/items" "GET") (by decide +kernel) (by decide +kernel)
  refine ⟨m, h1, _, _, h2, h3, GoChecked.compiles (rank := fun n => if n = "string" then 0 else 1) (by decide +kernel), fun h => ?_⟩
  simpa using h.timestamp

/-- C84 is false: without an action, the variables of `InitServer` are not used. -/
theorem C84_refuted_no_action : ∃ m, Accepted noLib m ∧ ∃ f sv, goModel m { name := "Svc" } = .ok f ∧
    goServer m { name := "Svc" } someGoLib = .ok sv ∧ GoCompiles f ∧ ¬ GoServerCompiles f sv := by
  obtain ⟨m, h1, h2, h3⟩ := server_of noLib itemSource { name := "Svc" } someGoLib
    ⟨"", ["encoding/json", "fmt", "strings", "time"],
      [.iface "Svc" [], .heading "Item", .struct "Item" [⟨"Created", .ptr (.ident "Timestamp"), "created", true⟩], .timestamp]⟩
    ⟨"", goServerImports, "Svc", "svcAdaptor", [], []⟩ (by decide +kernel) (by decide +kernel)
  exact ⟨m, h1, _, _, h2, h3, GoChecked.compiles (rank := fun n => if n = "string" then 0 else 1) (by decide +kernel), fun h => h.routesUse rfl⟩

/-- C84 is false: an exception of a union type is a case that no error can be. -/
theorem C84_refuted_exception : ∃ m, Accepted noLib m ∧ ∃ f sv, goModel m { name := "Svc" } = .ok f ∧
    goServer m { name := "Svc" } someGoLib = .ok sv ∧ GoCompiles f ∧ ¬ GoServerCompiles f sv := by
  obtain ⟨m, h1, h2, h3⟩ := server_of noLib
    (itemSource ++ [sym "type", sym "U", sym "Union", punct .openAngle, sym "Item", punct .closeAngle, nl] ++
      actionSource "GET" "/items" [expectSource "200" [[sym "item", sym "Item"]], [sym "except", num "404", sym "U"]])
    { name := "Svc" } someGoLib (itemFile [] [⟨"Item", .ptr (.ident "Item"), "item", false⟩]
      [.heading "U", .union "U" ["Item"] [⟨"Item", .ptr (.ident "Item"), "Item", true⟩], .errorMethod "U"])
    (oneServer ⟨"DoIt", false, [], "res", [(.ident "U", 404)], [], 200, some "Item"⟩ "/items" "GET") (by decide +kernel) (by decide +kernel)
  refine ⟨m, h1, _, _, h2, h3, GoChecked.compiles (rank := fun n => if n = "string" then 0 else 1) (by decide +kernel), fun h => ?_⟩
  have := (h.handlers _ (List.mem_singleton.2 rfl)).cases _ (List.mem_singleton.2 rfl)
  cases this with
  | iface h => simp [itemFile] at h

/-! ### C85 -/

/-- C85: what the handlers of a generated server do, when types and server respect the rules of Go: a request whose query or
body is malformed is refused; any other is given to the implementation, with every input as it was sent, or its default;
and the answer is sent as the action declares. -/
theorem C85_handlers (lib : PLib) (m : Model) (h : Accepted lib m) (conf : GoConf) (gl : GoLib) (hc : conf.name ∉ BaseTypes)
    (hcap : capitalize conf.name = conf.name) (f : GoFile) (hf : goModel m conf = .ok f) (sv : GoServer) (hs : goServer m conf gl = .ok sv)
    (h1 : GoCompiles f) (h2 : GoServerCompiles f sv) :
    List.Forall₂ (fun hd g => g.method = capitalize hd.name ∧ ∀ e, hd.expected = some e →
      ∀ (τ β ρ ε : Type) (rd : GoReads τ β) (impl : List (String × GoVal τ β) → GoAnswer ρ ε) (rq : GoRequest),
        (Refused rd hd rq ∧ RunHandler rd impl g rq = .refused) ∨
        (¬ Refused rd hd rq ∧ ∃ fields, List.Forall₂ (fun p f => f.1 = capitalize p.field.name ∧ Delivered gl rd m.schema rq p f.2) hd.inputs fields ∧
          Answered hd e (impl fields) (RunHandler rd impl g rq))) m.schema.http sv.handlers := by
  have hm := accepted_newModel h
  have hne := accepted_named h
  obtain ⟨hsound, hssound⟩ := (C84_compiles_iff lib m h conf gl hc hcap f hf sv hs).1 ⟨h1, h2⟩
  obtain ⟨hr, rfl⟩ := (goModel_ok_iff hm hne conf f).1 hf
  obtain ⟨hserv, rfl⟩ := (goServer_ok_iff hm hne conf gl sv).1 hs
  refine List.forall₂_map_right_iff.2 (List.forall₂_same.2 fun hd hh => ⟨rfl, ?_⟩)
  intro e he τ β ρ ε rd impl rq
  exact handler_runs hm hr gl hsound hh (hserv hd hh) (accepted_http h hd hh).exceptions he (hssound.served hd hh e he).exceptions rd impl rq

/-- A source with an action that has parameters in the path, the query and a header, an entity, a header and an exception. -/
def serverSource : List Token :=
  [sym "type", sym "Name", sym "String", nl] ++ itemSource ++
  [sym "type", sym "NotFound", sym "Struct", punct .openBrace, nl, sym "message", sym "String", nl, punct .closeBrace, nl] ++
  actionSource "GET" "/items/{name}?limit={limit}&lang={lang}"
    [[sym "name", sym "Name"], defaultSource "limit" "Int32" (num "10"), defaultSource "lang" "String" (str "en"),
     headerSource "since" "Timestamp" "If-Modified-Since",
     expectSource "200" [[sym "item", sym "Item"], headerSource "modified" "Timestamp" "Last-Modified"], [sym "except", num "404", sym "NotFound"]]

def serverFile : GoFile :=
  ⟨"", ["encoding/json", "fmt", "strings", "time"],
   [.iface "Svc" ["DoIt"],
    .struct "DoItRequest" [⟨"Name", .ident "Name", "name", true⟩, ⟨"Limit", .ident "int32", "limit", true⟩, ⟨"Lang", .ident "string", "lang", true⟩,
      ⟨"Since", .ptr (.ident "Timestamp"), "since", false⟩],
    .struct "DoItResponse" [⟨"Item", .ptr (.ident "Item"), "item", false⟩, ⟨"Modified", .ptr (.ident "Timestamp"), "modified", true⟩],
    .heading "Name", .defn "Name" (.ident "string") "",
    .heading "Item", .struct "Item" [⟨"Created", .ptr (.ident "Timestamp"), "created", true⟩],
    .heading "NotFound", .struct "NotFound" [⟨"Message", .ident "string", "message", true⟩], .errorMethod "NotFound",
    .timestamp]⟩

def serverHandler : GoHandler :=
  { method := "DoIt", form := true
    steps := [.assign "Name" (.conv "Name" (.str (.var "name") "")), .assign "Limit" (.conv "int32" (.int (.form "limit") 10)),
      .assign "Lang" (.conv "string" (.str (.form "lang") "0xc000012250")), .assign "Since" (.time (.header "If-Modified-Since") none)]
    result := "res", cases := [(.ptr (.ident "NotFound"), 404)], headers := [("Last-Modified", "Modified")], status := 200, entity := some "Item" }

/-- The names of the inputs, their types, and their defaults where these are texts. -/
def inputsOf (m : Model) : List (List (String × String × String)) :=
  m.schema.http.map fun h => h.inputs.map fun p => (p.field.name, p.field.ts.type, match p.field.default with | .strPtr s => s | _ => "")

theorem serverSource_ok : ∃ m, Accepted tens m ∧ goModel m { name := "Svc" } = .ok serverFile ∧
    goServer m { name := "Svc" } someGoLib = .ok (oneServer serverHandler "/items/{name}" "GET") ∧
    inputsOf m = [[("name", "Name", ""), ("limit", "Int32", ""), ("lang", "String", "en"), ("since", "Timestamp", "")]] := by
  obtain ⟨m, h2, h3⟩ := accepted_of tens serverSource (fun m => goFile? m { name := "Svc" } == some serverFile &&
    (goServer? m { name := "Svc" } someGoLib == some (oneServer serverHandler "/items/{name}" "GET") &&
    inputsOf m == [[("name", "Name", ""), ("limit", "Int32", ""), ("lang", "String", "en"), ("since", "Timestamp", "")]]))
    (by decide +kernel) (by decide +kernel)
  refine ⟨m, h2, ?_⟩
  rw [Bool.and_eq_true, Bool.and_eq_true, beq_iff_eq, beq_iff_eq, beq_iff_eq] at h3
  obtain ⟨h4, h5, h6⟩ := h3
  unfold goFile? at h4
  unfold goServer? at h5
  split at h4
  · next e he =>
    split at h5
    · next e' he' => injection h4 with h4; injection h5 with h5; rw [he, he', h4, h5]; exact ⟨rfl, rfl, h6⟩
    · cases h5
  · cases h4

theorem serverFile_compiles : GoCompiles serverFile :=
  GoChecked.compiles (rank := fun n => if n = "string" ∨ n = "int32" then 0 else if n = "Name" then 1 else 2) (by decide +kernel)

theorem serverHandler_compiles : GoHandlerCompiles serverFile "Svc" serverHandler := by
  have hd : ∀ d ∈ serverFile.decls, d ∈ serverFile.decls := fun _ h => h
  refine ⟨⟨["DoIt"], by decide +kernel, by decide +kernel⟩, ⟨_, hd (.struct "DoItRequest" _) (.tail _ (.head _)), ?_⟩,
    ⟨_, hd (.struct "DoItResponse" _) (.tail _ (.tail _ (.head _))), by decide +kernel, by decide +kernel⟩, ?_, ?_, ?_, by decide +kernel, ?_⟩
  · intro s hs
    simp only [serverHandler, List.mem_cons, List.not_mem_nil, or_false] at hs
    rcases hs with rfl | rfl | rfl | rfl
    · exact ⟨_, .head _, rfl, .text .str (.inr ⟨"string", by decide, "", by decide +kernel⟩) (by decide)⟩
    · exact ⟨_, .tail _ (.head _), rfl, .number .int (.inl (by decide)) (by decide)⟩
    · exact ⟨_, .tail _ (.tail _ (.head _)), rfl, .text .str (.inl (by decide)) (by decide)⟩
    · exact ⟨_, .tail _ (.tail _ (.tail _ (.head _))), rfl, .time⟩
  · simp [HandlerUses, GoScoped, StepUses, serverHandler]
  · intro xs hxs x hx hne
    simp only [HandlerUses, StepUses, serverHandler, if_true, List.flatMap_cons, List.flatMap_nil, List.cons_append, List.nil_append,
      List.append_nil, List.mem_cons, GoUse.declare.injEq, reduceCtorEq, false_or, or_false, List.not_mem_nil, Option.isSome_some] at hxs
    rcases hxs with rfl | rfl | rfl <;> simp only [List.mem_cons, List.not_mem_nil, or_false] at hx
    · subst hx; simp [HandlerUses, StepUses, serverHandler]
    · subst hx; simp [HandlerUses, StepUses, serverHandler]
    · rcases hx with rfl | rfl <;> simp [HandlerUses, StepUses, serverHandler]
  · intro c hc
    simp only [serverHandler, List.mem_cons, List.not_mem_nil, or_false] at hc
    subst hc
    exact .pointer (by decide +kernel) (by decide)
  · have : ∀ e ∈ serverHandler.headers, ∀ c ∈ e.1.toList, c ≠ '"' ∧ c ≠ '\\' ∧ c ≠ '\n' := by decide +kernel
    exact this

theorem server_compiles : GoServerCompiles serverFile (oneServer serverHandler "/items/{name}" "GET") := by
  refine ⟨by decide +kernel, by decide +kernel, by decide +kernel, by decide +kernel, fun p => Iff.rfl, by decide +kernel, ?_, by decide +kernel,
    by decide +kernel, ?_⟩
  · intro h hh
    rw [List.mem_singleton.1 hh]
    exact serverHandler_compiles
  · have : ∀ r ∈ (oneServer serverHandler "/items/{name}" "GET").routes, (∀ c ∈ r.path.toList, c ≠ '"' ∧ c ≠ '\\' ∧ c ≠ '\n') ∧
      (∀ c ∈ r.method.toList, c ≠ '"' ∧ c ≠ '\\' ∧ c ≠ '\n') ∧ ∃ h ∈ (oneServer serverHandler "/items/{name}" "GET").handlers, h.method = r.handler := by
      decide +kernel
    exact this

/-- The hypotheses of C83, C84 and C85 are met by an accepted source whose types and server are generated and respect the
rules of Go, and whose schema is sound. -/
example : ∃ m, Accepted tens m ∧ ∃ f sv, goModel m { name := "Svc" } = .ok f ∧ goServer m { name := "Svc" } someGoLib = .ok sv ∧
    (GoCompiles f ∧ GoServerCompiles f sv) ∧ GoSound "Svc" false m.schema ∧ GoServerSound "Svc" false m.schema := by
  obtain ⟨m, h1, h2, h3, _⟩ := serverSource_ok
  exact ⟨m, h1, _, _, h2, h3, ⟨serverFile_compiles, server_compiles⟩,
    (C84_compiles_iff tens m h1 { name := "Svc" } someGoLib (by decide) (by decide +kernel) _ h2 _ h3).1 ⟨serverFile_compiles, server_compiles⟩⟩

/-- A request with the given parameters in its query. -/
def queryRequest (q : List (String × String)) : GoRequest := ⟨fun k => (q.lookup k).getD "", fun _ => "", fun _ => "", true, ""⟩

/-- An implementation that fails with an error that holds the fields of the request. -/
def shows {τ β : Type} (fields : List (String × GoVal τ β)) : GoAnswer Unit (List (String × GoVal τ β)) := .error (.ident "error") fields

/-- There is a server that compiles, with the input (its name, type and text default), whose implementation is called for the
request, with the value in the field of the input. -/
def CalledWith (rq : GoRequest) (input : String × String × String) (v : GoVal Unit Unit) : Prop :=
  ∃ m, Accepted tens m ∧ ∃ f sv, goModel m { name := "Svc" } = .ok f ∧ goServer m { name := "Svc" } someGoLib = .ok sv ∧
    GoCompiles f ∧ GoServerCompiles f sv ∧ (∃ inputs ∈ inputsOf m, input ∈ inputs) ∧
    ∃ g ∈ sv.handlers, ∀ (rd : GoReads Unit Unit), ∃ fields, RunHandler rd shows g rq = .exception 500 fields ∧ (capitalize input.1, v) ∈ fields

theorem calledWith_of (rq : GoRequest) (input : String × String × String) (v : GoVal Unit Unit)
    (hf : input ∈ [("name", "Name", ""), ("limit", "Int32", ""), ("lang", "String", "en"), ("since", "Timestamp", "")])
    (h : ∀ (rd : GoReads Unit Unit), ∃ fields, RunHandler rd shows serverHandler rq = .exception 500 fields ∧ (capitalize input.1, v) ∈ fields) :
    CalledWith rq input v := by
  obtain ⟨m, h1, h2, h3, h4⟩ := serverSource_ok
  exact ⟨m, h1, _, _, h2, h3, serverFile_compiles, server_compiles, ⟨_, by rw [h4]; exact .head _, hf⟩, serverHandler, List.mem_singleton.2 rfl, h⟩

/-- What a user would expect is false: a server that compiles does not refuse a parameter that is not a number; the implementation
is called with the default. -/
theorem C85_refuted_not_a_number : CalledWith (queryRequest [("limit", "abc")]) ("limit", "Int32", "") (.int 10) :=
  calledWith_of _ _ _ (by decide) fun rd => ⟨_, rfl, .tail _ (.head _)⟩

/-- What a user would expect is false: nor does it refuse a number that is too great for its type; the implementation is called
with another number. -/
theorem C85_refuted_range : CalledWith (queryRequest [("limit", "4294967297")]) ("limit", "Int32", "") (.int 1) := by
  refine calledWith_of _ _ _ (by decide) fun rd => ?_
  have h1 : parseInt 64 "4294967297" = some 4294967297 := by decide +kernel
  have h2 : ExprValue rd (queryRequest [("limit", "4294967297")]) (.conv "int32" (.int (.form "limit") 10)) = .int 1 := by
    simp [ExprValue, SourceText, queryRequest, List.lookup, h1, GoConvert, GoBits, GoWrap]
  exact ⟨_, rfl, .tail _ (h2 ▸ .head _)⟩

/-- What a user would expect is false: for a parameter of type String that is not sent, the implementation does not get the
default that the action declares, but the address that this default had when the server was generated. -/
theorem C85_refuted_default : CalledWith (queryRequest []) ("lang", "String", "en") (.text "0xc000012250") :=
  calledWith_of _ _ _ (by decide) fun rd => ⟨_, rfl, .tail _ (.tail _ (.head _))⟩

end Sadl.Props
