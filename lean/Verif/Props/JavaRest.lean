import Verif.Props.JavaExport
import Verif.Props.GoServer
/-
C94, C95: when the generated Java server and client can be written, and what they consist of.
-/
namespace Sadl.Props
open Sadl Sadl.Spec

theorem accepted_namedParams {lib : PLib} {m : Model} (h : Accepted lib m) : NamedParams m.schema := by
  obtain ⟨files, n, name, ns, toks, h1, h2, h3⟩ := h
  exact namedParams_of_source (namedParams_of_file h2 n) (by simp [NamedParams, initialSchema]) h1 (parses_iff.1 h3).1

theorem javaNamed_required {s : Schema} {inst : Bool} {n : String} {r : Bool} {t : JTy} (h : JavaNamed s inst n r t) (r' : Bool) :
    ∃ t', JavaNamed s inst n r' t' := by
  induction h with
  | primitive h => cases r'; exact ⟨_, .boxed h⟩; exact ⟨_, .primitive h⟩
  | boxed h => cases r'; exact ⟨_, .boxed h⟩; exact ⟨_, .primitive h⟩
  | builtin h => exact ⟨_, .builtin h⟩
  | transparent h1 h2 _ ih => obtain ⟨t, ht⟩ := ih; exact ⟨_, .transparent h1 h2 ht⟩
  | array h1 h2 h3 h4 => exact ⟨_, .array h1 h2 h3 h4⟩
  | map h1 h2 h3 h4 h5 h6 => exact ⟨_, .map h1 h2 h3 h4 h5 h6⟩
  | own h1 h2 h3 h4 => exact ⟨_, .own h1 h2 h3 h4⟩
  | unknown h => exact ⟨_, .unknown h⟩

theorem javaBare_exists {s : Schema} {inst : Bool} (hall : ∀ td ∈ s.types, ∃ t, JavaNamed s inst td.name false t) (n : String) (r : Bool) :
    ∃ t, JavaBare s inst n r t := by
  by_cases hn : n ∈ s.types.map TypeDef.name
  · obtain ⟨td, htd, rfl⟩ := List.mem_map.1 hn
    obtain ⟨t, ht⟩ := hall td htd
    obtain ⟨t', ht'⟩ := javaNamed_required ht r
    exact ⟨t', .named ht'⟩
  · by_cases hb : n ∈ BaseTypes
    · have prim : ∀ {p b}, JavaPrimitive n p b → ∃ t, JavaBare s inst n r t := fun h => by
        cases r
        · exact ⟨_, .named (.boxed h)⟩
        · exact ⟨_, .named (.primitive h)⟩
      have bi : ∀ {c}, JavaBuiltin inst n c → ∃ t, JavaBare s inst n r t := fun h => ⟨_, .named (.builtin h)⟩
      have hcases : n ∈ ["Bool", "Int8", "Int16", "Int32", "Int64", "Float32", "Float64", "Decimal", "Bytes", "String", "Timestamp", "UUID",
          "Array", "Map", "Struct", "Enum", "Union", "Any", "UnitValue"] := by
        exact (by decide : ∀ n ∈ BaseTypes, n ∈ ["Bool", "Int8", "Int16", "Int32", "Int64", "Float32", "Float64", "Decimal", "Bytes", "String",
          "Timestamp", "UUID", "Array", "Map", "Struct", "Enum", "Union", "Any", "UnitValue"]) n hb
      simp only [List.mem_cons, List.not_mem_nil, or_false] at hcases
      rcases hcases with rfl | rfl | rfl | rfl | rfl | rfl | rfl | rfl | rfl | rfl | rfl | rfl | rfl | rfl | rfl | rfl | rfl | rfl | rfl
      · exact prim .bool
      · exact prim .int8
      · exact prim .int16
      · exact prim .int32
      · exact prim .int64
      · exact prim .float32
      · exact prim .float64
      · exact bi .decimal
      · exact bi (.other (by decide))
      · exact bi .string
      · cases inst
        · exact bi (.timestamp rfl)
        · exact bi (.instant rfl)
      · exact bi .uuid
      · exact ⟨_, .array⟩
      · exact ⟨_, .map⟩
      · exact bi (.other (by decide))
      · exact bi (.other (by decide))
      · exact bi (.other (by decide))
      · exact bi .any
      · exact bi (.other (by decide))
    · refine ⟨_, .named (.unknown ?_)⟩
      rintro ⟨ts, ⟨td, h1, h2, _⟩ | ⟨h1, _⟩⟩
      · exact hn (List.mem_map.2 ⟨td, h1, h2⟩)
      · exact hb h1

theorem javaMethodName_exists {lib : PLib} {m : Model} (h : Accepted lib m) {hd : HttpDef} (hh : hd ∈ m.schema.http)
    {e : HttpExpectedSpec} (he : hd.expected = some e) : ∃ n, JavaMethodName hd n ∧ n ≠ "" := by
  have hm := (accepted_http h hd hh).method
  by_cases hn : hd.name = ""
  · have : ∃ n t, JavaSubject hd n t := by
      by_cases hp : hd.method = "POST" ∨ hd.method = "PUT"
      · exact javaSubject_exists hp
      · obtain ⟨h1, h2⟩ := not_or.1 hp
        cases hf : e.outputs.find? fun p => decide (JavaOutBody p) with
        | some p => exact ⟨_, _, .output h1 h2 he (firstOf_find.1 hf)⟩
        | none => exact ⟨_, _, .noOutput h1 h2 he (find_none.1 hf)⟩
    obtain ⟨n, t, hs⟩ := this
    refine ⟨_, .unnamed hn hs, fun h0 => ?_⟩
    have h1 := congrArg String.toList h0
    simp only [String.toList_append, lowerAscii, String.toList_ofList, String.toList_empty, List.append_eq_nil_iff, List.map_eq_nil_iff] at h1
    have h2 : hd.method = "" := String.toList_inj.1 (by simpa using h1.1)
    rw [h2] at hm
    exact absurd hm (by decide)
  · refine ⟨_, .named hn, fun h0 => hn ?_⟩
    apply String.toList_inj.1
    have h1 := congrArg String.toList h0
    unfold uncapitalize at h1
    rw [String.toList_ofList] at h1
    cases h2 : hd.name.toList with
    | nil => rfl
    | cons c cs => rw [h2] at h1; simp [uncapitalizeL] at h1

/-! ### C94 -/

section
variable (lib : PLib) (m : Model) (h : Accepted lib m) (hb : NoBoxes m.schema) (conf : JavaConf)
include h hb

/-- C94: the methods of the server are generated exactly when there is one for each action. -/
theorem C94_generates_iff : (∃ r, javaResources m conf m.schema.http = .ok r) ↔ ∀ hd ∈ m.schema.http, JavaResourceReady m.schema conf hd :=
  javaResources_ready (accepted_java h hb) conf _

/-- C94: when every type has a Java type, which is so when no array or map contains itself, the methods of the server are
generated exactly when every action has an expected response and the defaults of inputs are strings, numbers or booleans. -/
theorem C94_generates_plain (hall : ∀ td ∈ m.schema.types, ∃ t, JavaNamed m.schema conf.instants td.name false t) :
    (∃ r, javaResources m conf m.schema.http = .ok r) ↔ ∀ hd ∈ m.schema.http,
      (∃ e, hd.expected = some e) ∧ ∀ p ∈ hd.inputs, ∃ d, JavaDefaultFor conf.decText p.field.default d := by
  rw [C94_generates_iff lib m h hb]
  refine forall₂_congr fun hd hh => ⟨fun hr => ?_, fun ⟨⟨e, he⟩, hd2⟩ => ?_⟩
  · obtain ⟨e, he, _⟩ := hr.expected
    exact ⟨⟨e, he⟩, fun p hp => (hr.params p hp).2⟩
  · exact ⟨javaMethodName_exists h hh he, fun p hp => ⟨javaBare_exists hall _ _, hd2 p hp⟩,
      ⟨e, he, fun p _ => javaBare_exists hall _ _, fun p hp _ => (accepted_namedParams h hd hh).2 e he p hp⟩, fun x _ => javaBare_exists hall _ _⟩

/-- C94: the server has one method for each action, in order, which takes the inputs from where the action puts them, with their
defaults, calls the service and sends the expected status, the headers and the body, or the status of an exception. -/
theorem C94_mirrors (rs : List JResource) (ns : List JNote) (hr : javaResources m conf m.schema.http = .ok (rs, ns)) :
    List.Forall₂ (JavaResourceFor m.schema conf) m.schema.http rs := javaResources_ok (accepted_java h hb) conf _ hr

/-! ### C95 -/

/-- C95: the methods of the client are generated exactly when there is one for each action. -/
theorem C95_generates_iff : (∃ cs, javaCalls m conf m.schema.http = .ok cs) ↔ ∀ hd ∈ m.schema.http, JavaCallReady m.schema conf hd :=
  javaCalls_ready (accepted_java h hb) conf _

/-- C95: when every type has a Java type, the methods of the client are generated exactly when every action has an expected
response, is GET, PUT, POST or DELETE, and has a name if there are outputs. -/
theorem C95_generates_plain (hall : ∀ td ∈ m.schema.types, ∃ t, JavaNamed m.schema conf.instants td.name false t) :
    (∃ cs, javaCalls m conf m.schema.http = .ok cs) ↔ ∀ hd ∈ m.schema.http, hd.method ∈ ["GET", "PUT", "POST", "DELETE"] ∧
      ∃ e, hd.expected = some e ∧ (e.outputs ≠ [] → hd.name ≠ "") := by
  rw [C95_generates_iff lib m h hb]
  refine forall₂_congr fun hd hh => ⟨fun hr => ?_, fun ⟨hm, e, he, hn⟩ => ?_⟩
  · obtain ⟨e, he, h1⟩ := hr.expected
    exact ⟨hr.method, e, he, fun ho => (h1 ho).1⟩
  · exact ⟨hm, javaMethodName_exists h hh he, (accepted_namedParams h hd hh).1, e, he,
      fun ho => ⟨hn ho, fun p _ => javaBare_exists hall _ _, fun p _ _ => javaBare_exists hall _ _⟩⟩

/-- C95: the client has one method for each action, in order, which sends the inputs to where the action puts them and makes a
response or an exception of what it receives. -/
theorem C95_mirrors (cs : List JCall) (hc : javaCalls m conf m.schema.http = .ok cs) :
    List.Forall₂ (JavaCallFor m.schema conf) m.schema.http cs := javaCalls_ok (accepted_java h hb) conf _ hc

end

/-! ### Examples -/

/-- A source with one action. -/
def javaSourceOf (method path : String) (spec : List (List Token)) : List Token :=
  [sym "name", sym "test", nl] ++ itemSource ++ actionSource method path spec

/-- The methods of the server, if they are generated. -/
def javaResources? (m : Model) (conf : JavaConf) : Option (List JResource) :=
  match javaResources m conf m.schema.http with | .ok r => some r.1 | _ => none

/-- The methods of the client, if they are generated. -/
def javaCalls? (m : Model) (conf : JavaConf) : Option (List JCall) :=
  match javaCalls m conf m.schema.http with | .ok cs => some cs | _ => none

theorem javaRest_of (toks : List Token) (conf : JavaConf) (rs : Option (List JResource)) (cs : Option (List JCall))
    (h1 : toks.all (fun t => decide (t.type = .symbol → t.text ≠ "")) = true)
    (h : accepts noLib toks (fun m => decide ((∀ td ∈ m.schema.types, td.name ∉ JavaBoxes) ∧ javaResources? m conf = rs ∧ javaCalls? m conf = cs)) = true) :
    ∃ m, Accepted noLib m ∧ NoBoxes m.schema ∧ javaResources? m conf = rs ∧ javaCalls? m conf = cs := by
  obtain ⟨m, h2, h3⟩ := accepted_of noLib toks _ h1 h
  obtain ⟨h4, h5, h6⟩ := of_decide_eq_true h3
  exact ⟨m, h2, h4, h5, h6⟩

/-- The method of the server for `/items/{id}`. -/
def javaItemResource (verb : String) : JResource :=
  { verb := verb, path := "/items/{id}", name := "doIt", request := "DoItRequest", response := "DoItResponse",
    params := [{ bind := .path "id", type := .name "String", name := "id" }], status := 200, result := true, headers := [],
    entity := some ("item", false), exceptions := [] }

/-- The method of the client for `/items/{id}`. -/
def javaItemCall (verb : String) (entity : Option String) : JCall :=
  { name := "doIt", request := "DoItRequest", response := "DoItResponse", verb := verb, path := "/items/{id}", templates := ["id"],
    queries := [], headers := [], entity := entity, status := 200, result := .value (some ("item", "Item")) [], exceptions := [] }

/-- The hypotheses of C94 and C95 can be met. -/
theorem C94_example : ∃ m, Accepted noLib m ∧ NoBoxes m.schema ∧ javaResources? m {} = some [javaItemResource "GET"] ∧
    javaCalls? m {} = some [javaItemCall "GET" none] :=
  javaRest_of (javaSourceOf "GET" "/items/{id}" [[sym "id", sym "String"], expectSource "200" [[sym "item", sym "Item"]]]) _ _ _
    (by decide +kernel) (by decide +kernel)

/-- C94: an input with an array as its default value has no server. -/
theorem C94_refuted_default : ∃ m, Accepted noLib m ∧ NoBoxes m.schema ∧ javaResources? m {} = none ∧
    ∃ cs, javaCalls? m {} = some cs := by
  obtain ⟨m, h1, h2, h3, h4⟩ := javaRest_of (javaSourceOf "GET" "/items?tags={tags}"
    [[sym "tags", sym "Array", punct .openAngle, sym "String", punct .closeAngle, punct .openParen, sym "default", punct .equals,
      punct .openBracket, str "a", punct .closeBracket, punct .closeParen], expectSource "200" [[sym "item", sym "Item"]]]) {} none
    (some [{ javaItemCall "GET" none with path := "/items", templates := [], queries := [("tags", "tags")] }])
    (by decide +kernel) (by decide +kernel)
  exact ⟨m, h1, h2, h3, _, h4⟩

theorem within_tail {x t p1 p2 p3 p4 p5 p6 : String} (h : ∃ b a, t = b ++ (p1 ++ (p2 ++ (p3 ++ (p4 ++ (p5 ++ (p6 ++ a))))))) :
    ∃ b a, x ++ t = b ++ (p1 ++ (p2 ++ (p3 ++ (p4 ++ (p5 ++ (p6 ++ a)))))) := by
  obtain ⟨b, a, rfl⟩ := h
  exact ⟨x ++ b, a, by simp only [String.append_assoc]⟩

theorem within_six {p1 p2 p3 p4 p5 p6 rest : String} :
    ∃ b a, p1 ++ (p2 ++ (p3 ++ (p4 ++ (p5 ++ (p6 ++ rest))))) = b ++ (p1 ++ (p2 ++ (p3 ++ (p4 ++ (p5 ++ (p6 ++ a)))))) :=
  ⟨"", rest, by simp only [String.empty_append]⟩

/-- C94: when the setting `name` is not the name of the service, the methods call the member `svcController`, but the member is
called `testController`. -/
theorem C94_refuted_name : ∃ m, Accepted noLib m ∧ NoBoxes m.schema ∧ ∃ r, javaResources? m { name := "Svc" } = some [r] ∧
    (∃ before after, javaResourcesText { name := "Svc" } (capitalize m.schema.name) "/" [r] =
      before ++ "    @Inject\n    private Test testController;\n" ++ after) ∧
    ∃ before after, r.body { name := "Svc" } = before ++ " res = svcController.doIt(req);\n" ++ after := by
  obtain ⟨m, h1, h2⟩ := accepted_of noLib
    (javaSourceOf "GET" "/items/{id}" [[sym "id", sym "String"], expectSource "200" [[sym "item", sym "Item"]]])
    (fun m => decide ((∀ td ∈ m.schema.types, td.name ∉ JavaBoxes) ∧ javaResources? m { name := "Svc" } = some [javaItemResource "GET"] ∧
      capitalize m.schema.name = "Test" ∧ uncapitalize "Svc" = "svc" ∧ uncapitalize "Test" = "test")) (by decide +kernel) (by decide +kernel)
  obtain ⟨h3, h4, h5, h6, h7⟩ := of_decide_eq_true h2
  have e1 : "    @Inject\n    private Test testController;\n" = "    @Inject\n" ++ ("    private " ++ ("Test" ++ (" " ++ ("test" ++ "Controller;\n")))) := by decide +kernel
  have e2 : " res = svcController.doIt(req);\n" = " res = " ++ ("svc" ++ ("Controller" ++ ("." ++ ("doIt" ++ "(req);\n")))) := by
    decide +kernel
  refine ⟨m, h1, h3, _, h4, ?_, ?_⟩
  · rw [h5, e1]
    unfold javaResourcesText
    rw [h7]
    generalize catAll _ = methods
    simp only [String.append_assoc]
    repeat (first | with_reducible exact within_six | with_reducible apply within_tail)
  · rw [e2]
    unfold JResource.body javaItemResource
    dsimp only
    simp only [h6, ↓reduceIte]
    generalize catAll _ = x, catAll _ = y
    simp only [String.append_assoc]
    repeat (first | with_reducible exact within_six | with_reducible apply within_tail)

/-- C95: an action with the method PATCH has a server, but no client. -/
theorem C95_refuted_patch : ∃ m, Accepted noLib m ∧ NoBoxes m.schema ∧ javaResources? m {} = some [javaItemResource "PATCH"] ∧
    javaCalls? m {} = none :=
  javaRest_of (javaSourceOf "PATCH" "/items/{id}" [[sym "id", sym "String"], expectSource "200" [[sym "item", sym "Item"]]]) _ _ _
    (by decide +kernel) (by decide +kernel)

/-- C95: a POST without a body calls the getter of an input `anonymous`, which there is not. -/
theorem C95_refuted_anonymous : ∃ m, Accepted noLib m ∧ NoBoxes m.schema ∧ javaResources? m {} = some [javaItemResource "POST"] ∧
    javaCalls? m {} = some [javaItemCall "POST" (some "anonymous")] :=
  javaRest_of (javaSourceOf "POST" "/items/{id}" [[sym "id", sym "String"], expectSource "200" [[sym "item", sym "Item"]]]) _ _ _
    (by decide +kernel) (by decide +kernel)

/-- The method of the server for `/` without a name. -/
def javaRootResource : JResource :=
  { verb := "GET", path := "/", name := "getItem", request := "GetItemRequest", response := "GetItemResponse", params := [], status := 200,
    result := true, headers := [], entity := some ("item", false), exceptions := [] }

/-- C95: an action without a name, for which the parser finds none, has a server, but no client. -/
theorem C95_refuted_unnamed : ∃ m, Accepted noLib m ∧ NoBoxes m.schema ∧ javaResources? m {} = some [javaRootResource] ∧
    javaCalls? m {} = none :=
  javaRest_of ([sym "name", sym "test", nl] ++ itemSource ++ [sym "http", sym "GET", str "/", punct .openBrace, nl, sym "expect", num "200",
    punct .openBrace, nl, sym "item", sym "Item", nl, punct .closeBrace, nl, punct .closeBrace, nl]) _ _ _
    (by decide +kernel) (by decide +kernel)

end Sadl.Props
