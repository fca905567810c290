import Verif.Lemmas.ValidMain
import Verif.Lemmas.ParserNames
import Verif.Lemmas.ValidPerm
import Verif.Props.Parsing
/-
What is known of a model that parsing with validation has accepted: C21, C22, C23, C26, C34,
C53; and C52, validation does not depend on the order of the definitions.
-/
namespace Sadl.Props
open Sadl Sadl.Spec

/-- The model `m` is the result of parsing, with validation, some source that may include
other files.  The lexer delivers no empty symbols. -/
def Accepted (lib : PLib) (m : Model) : Prop :=
  ∃ (files : String → Option (List Token)) (n : Nat) (name ns : String) (toks : List Token),
    (∀ t ∈ toks, t.type = .symbol → t.text ≠ "") ∧
    (∀ f ts, files f = some ts → ∀ t ∈ ts, t.type = .symbol → t.text ≠ "") ∧
    Parses lib (parseFileN lib files n) (initialSchema name ns) toks m

/-- C53: the definitions of an accepted source form a valid schema. -/
theorem C53_accepted_valid (lib : PLib) (m : Model) (h : Accepted lib m) :
    Valid (Conforms lib.toLib (Defines m.schema)) m.schema := by
  obtain ⟨files, n, name, ns, toks, h1, h2, h3⟩ := h
  obtain ⟨h4, h5⟩ := parses_iff.1 h3
  obtain ⟨_, _, h6⟩ := parseNoValidate_ok h4
  exact (accepted_iff_valid h6 (realValues_of_source (realValues_of_file n) (realValues_initial name ns) h4)
    (namedParams_of_source (namedParams_of_file h2 n) (by simp [NamedParams, initialSchema]) h1 h4)).1 h5

/-- C53: validation accepts exactly the valid schemas: a source that parses without
validation is accepted if and only if its definitions form a valid schema. -/
theorem C53_accepts_iff_valid (lib : PLib) (files : String → Option (List Token)) (n : Nat) (name ns : String)
    (toks : List Token) (h1 : ∀ t ∈ toks, t.type = .symbol → t.text ≠ "")
    (h2 : ∀ f ts, files f = some ts → ∀ t ∈ ts, t.type = .symbol → t.text ≠ "") (m : Model)
    (h : parseNoValidate lib (parseFileN lib files n) (initialSchema name ns) toks = some (.ok m)) :
    Parses lib (parseFileN lib files n) (initialSchema name ns) toks m ↔
      Valid (Conforms lib.toLib (Defines m.schema)) m.schema := by
  obtain ⟨_, _, h6⟩ := parseNoValidate_ok h
  rw [parses_iff, ← accepted_iff_valid h6 (realValues_of_source (realValues_of_file n) (realValues_initial name ns) h)
    (namedParams_of_source (namedParams_of_file h2 n) (by simp [NamedParams, initialSchema]) h1 h)]
  exact ⟨fun x => x.2, fun x => ⟨h, x⟩⟩

/-! ### examples of accepted sources -/

/-- Parses a source without includes, and looks at the accepted model. -/
def accepts (lib : PLib) (toks : List Token) (p : Model → Bool) : Bool :=
  match parse lib (parseFileN lib (fun _ => none) 0) (initialSchema "" "") toks 5 with
  | some (.ok m) => p m
  | _ => false

theorem accepted_of (lib : PLib) (toks : List Token) (p : Model → Bool)
    (h1 : toks.all (fun t => decide (t.type = .symbol → t.text ≠ "")) = true) (h : accepts lib toks p = true) :
    ∃ m, Accepted lib m ∧ p m = true := by
  unfold accepts at h
  split at h
  · next m hm =>
    refine ⟨m, ⟨fun _ => none, 0, "", "", toks, ?_, by simp, 5, hm⟩, h⟩
    intro t ht
    exact of_decide_eq_true (List.all_eq_true.1 h1 t ht)
  · simp at h

/-- `type S Struct { a String (default="x") b Array<S> m Map<String,Int32> }`,
`type A Array<S>`, `type U UnitValue<Decimal,String>`, an example, and an HTTP action. -/
def goodSource : List Token :=
  [sym "type", sym "S", sym "Struct", punct .openBrace, nl,
   sym "a", sym "String", punct .openParen, sym "default", punct .equals, str "x", punct .closeParen, nl,
   sym "b", sym "Array", punct .openAngle, sym "S", punct .closeAngle, nl,
   sym "m", sym "Map", punct .openAngle, sym "String", punct .comma, sym "Int32", punct .closeAngle, nl,
   punct .closeBrace, nl,
   sym "type", sym "A", sym "Array", punct .openAngle, sym "S", punct .closeAngle, nl,
   sym "type", sym "U", sym "UnitValue", punct .openAngle, sym "Decimal", punct .comma, sym "String", punct .closeAngle, nl,
   sym "example", sym "S", punct .openBrace, str "a", punct .colon, str "y", punct .closeBrace, nl,
   sym "http", sym "PUT", str "/s/{id}", punct .openBrace, nl,
   sym "id", sym "String", nl, sym "s", sym "S", nl,
   sym "expect", num "200", punct .openBrace, nl, sym "s", sym "S", nl, punct .closeBrace, nl,
   sym "except", num "404", sym "S", nl,
   punct .closeBrace, nl]

/-- The source is accepted, and the model holds what it says. -/
theorem goodSource_accepted : ∃ m, Accepted noLib m ∧
    (m.schema.types.map (·.name) == ["S", "A", "U"] && m.schema.examples.length == 1 && m.schema.http.length == 1) = true :=
  accepted_of noLib goodSource
    (fun m => m.schema.types.map (·.name) == ["S", "A", "U"] && m.schema.examples.length == 1 && m.schema.http.length == 1)
    (by decide +kernel) (by decide +kernel)

/-! ### C21 -/

/-- C21 (part): in an accepted source, the types named by the fields of struct types and by
their array items, map keys and map items, by the items of array types, the keys and items of
map types (unless the items are `Any`), the components of unit-value types, the reference
option of String and UUID types, the inputs and outputs of HTTP actions and the exceptions of
actions with an `expect` are all defined.  Missing: union variants, references of fields,
fields of nested struct types, operations, keys of maps with arbitrary items, exceptions of
actions without an `expect`: these are not checked, see the refutations below. -/
theorem C21_references_partial (lib : PLib) (m : Model) (h : Accepted lib m) :
    (∀ td ∈ m.schema.types, td.ts.type = "Struct" → ∀ f ∈ td.ts.fields,
      Known m.schema f.ts.type ∧ (f.ts.type = "Array" → f.ts.items ≠ "" → Known m.schema f.ts.items) ∧
      (f.ts.type = "Map" → (f.ts.keys ≠ "" → Known m.schema f.ts.keys) ∧ (f.ts.items ≠ "" → Known m.schema f.ts.items))) ∧
    (∀ td ∈ m.schema.types, td.ts.type = "Array" → Known m.schema td.ts.items) ∧
    (∀ td ∈ m.schema.types, td.ts.type = "Map" → Known m.schema td.ts.items ∧
      (td.ts.items ≠ "Any" → Known m.schema td.ts.keys)) ∧
    (∀ td ∈ m.schema.types, td.ts.type = "UnitValue" → Known m.schema td.ts.value ∧ Known m.schema td.ts.unit) ∧
    (∀ td ∈ m.schema.types, td.ts.type = "String" ∨ td.ts.type = "UUID" → td.ts.reference ≠ "" →
      Known m.schema td.ts.reference) ∧
    (∀ a ∈ m.schema.http, (∀ p ∈ a.inputs, Known m.schema p.field.ts.type) ∧
      ∀ e, a.expected = some e → (∀ p ∈ e.outputs, Known m.schema p.field.ts.type) ∧
        ∀ x ∈ a.exceptions, Known m.schema x.type) := by
  have hv := C53_accepted_valid lib m h
  refine ⟨?_, ?_, ?_, ?_, ?_, ?_⟩
  · intro td htd hs f hf
    have := (hv.types td htd).struct hs f hf
    exact ⟨this.known, this.arrayItems, fun hm => ⟨this.mapKeys hm, this.mapItems hm⟩⟩
  · intro td htd ha
    exact (hv.types td htd).array ha
  · intro td htd hm
    rcases (hv.types td htd).map hm with h1 | h1
    · exact ⟨by rw [h1]; exact known_any, fun h2 => absurd h1 h2⟩
    · exact ⟨h1.1, fun _ => h1.2⟩
  · intro td htd hu
    obtain ⟨tv, tu, h1, _, h2, _⟩ := (hv.types td htd).unitValue hu
    exact ⟨⟨_, h1⟩, ⟨_, h2⟩⟩
  · intro td htd hr
    exact (hv.types td htd).reference hr
  · intro a ha
    have := hv.http a ha
    exact ⟨this.inputTypes, fun e he => ⟨this.outputTypes e he, this.exceptionTypes e he⟩⟩

/-- A name that a schema does not define. -/
theorem not_known {s : Schema} {n : String} (h1 : ∀ td ∈ s.types, td.name ≠ n) (h2 : n ∉ BaseTypes) : ¬ Known s n := by
  rintro ⟨ts, ⟨td, h3, h4, _⟩ | ⟨h3, _⟩⟩
  · exact h1 td h3 h4
  · exact h2 h3

/-- C21 is false of union variants: `type U Union<Nope>` is accepted. -/
theorem C21_refuted_union : ∃ m, Accepted noLib m ∧ ∃ td ∈ m.schema.types, ∃ v ∈ td.ts.variants, ¬ Known m.schema v.ts.type := by
  obtain ⟨m, h1, h2⟩ := accepted_of noLib [sym "type", sym "U", sym "Union", punct .openAngle, sym "Nope", punct .closeAngle, nl]
    (fun m => m.schema.types.any (fun td => td.ts.variants.any (fun v => v.ts.type == "Nope")) && m.schema.types.all (fun td => td.name != "Nope"))
    (by decide +kernel) (by decide +kernel)
  simp only [Bool.and_eq_true, List.any_eq_true, List.all_eq_true, beq_iff_eq, bne_iff_ne] at h2
  obtain ⟨⟨td, h3, v, h4, h5⟩, h6⟩ := h2
  exact ⟨m, h1, td, h3, v, h4, by rw [h5]; exact not_known h6 (by decide)⟩

/-- C21 is false of map keys when the items are arbitrary: `type M Map<Nope,Any>` is accepted. -/
theorem C21_refuted_map_keys : ∃ m, Accepted noLib m ∧ ∃ td ∈ m.schema.types, td.ts.type = "Map" ∧ ¬ Known m.schema td.ts.keys := by
  obtain ⟨m, h1, h2⟩ := accepted_of noLib [sym "type", sym "M", sym "Map", punct .openAngle, sym "Nope", punct .comma, sym "Any",
    punct .closeAngle, nl]
    (fun m => m.schema.types.any (fun td => td.ts.type == "Map" && td.ts.keys == "Nope") && m.schema.types.all (fun td => td.name != "Nope"))
    (by decide +kernel) (by decide +kernel)
  simp only [Bool.and_eq_true, List.any_eq_true, List.all_eq_true, beq_iff_eq, bne_iff_ne] at h2
  obtain ⟨⟨td, h3, h4, h5⟩, h6⟩ := h2
  exact ⟨m, h1, td, h3, h4, by rw [h5]; exact not_known h6 (by decide)⟩

/-- C21 is false of the exceptions of an action without `expect`. -/
theorem C21_refuted_exception : ∃ m, Accepted noLib m ∧ ∃ a ∈ m.schema.http, ∃ x ∈ a.exceptions, ¬ Known m.schema x.type := by
  obtain ⟨m, h1, h2⟩ := accepted_of noLib [sym "http", sym "GET", str "/x", punct .openBrace, nl, sym "except", num "404", sym "Nope", nl,
    punct .closeBrace, nl]
    (fun m => m.schema.http.any (fun a => a.exceptions.any (fun x => x.type == "Nope")) && m.schema.types.all (fun td => td.name != "Nope"))
    (by decide +kernel) (by decide +kernel)
  simp only [Bool.and_eq_true, List.any_eq_true, List.all_eq_true, beq_iff_eq, bne_iff_ne] at h2
  obtain ⟨⟨td, h3, v, h4, h5⟩, h6⟩ := h2
  exact ⟨m, h1, td, h3, v, h4, by rw [h5]; exact not_known h6 (by decide)⟩

/-- C21 is false of the inputs of operations and of the fields of nested struct types. -/
theorem C21_refuted_nested : ∃ m, Accepted noLib m ∧ ∃ td ∈ m.schema.types, ∃ f ∈ td.ts.fields, ∃ g ∈ f.ts.fields,
    ¬ Known m.schema g.ts.type := by
  obtain ⟨m, h1, h2⟩ := accepted_of noLib [sym "type", sym "S", sym "Struct", punct .openBrace, nl, sym "x", sym "Struct",
    punct .openBrace, nl, sym "y", sym "Nope", nl, punct .closeBrace, nl, punct .closeBrace, nl]
    (fun m => m.schema.types.any (fun td => td.ts.fields.any (fun f => f.ts.fields.any (fun g => g.ts.type == "Nope"))) &&
      m.schema.types.all (fun td => td.name != "Nope"))
    (by decide +kernel) (by decide +kernel)
  simp only [Bool.and_eq_true, List.any_eq_true, List.all_eq_true, beq_iff_eq, bne_iff_ne] at h2
  obtain ⟨⟨td, h3, f, h4, g, h5, h6⟩, h7⟩ := h2
  exact ⟨m, h1, td, h3, f, h4, g, h5, by rw [h6]; exact not_known h7 (by decide)⟩

/-! ### C22 -/

/-- C22 (part): no field of a struct type of an accepted source is both required and
defaulted, and every default of such a field conforms to the type of the field.  Missing: the
fields of struct types nested in a field are not checked. -/
theorem C22_defaults_partial (lib : PLib) (m : Model) (h : Accepted lib m) (td : TypeDef) (htd : td ∈ m.schema.types)
    (hs : td.ts.type = "Struct") (f : StructFieldDef) (hf : f ∈ td.ts.fields) (hd : f.default ≠ .null) :
    f.required = false ∧ Conforms lib.toLib (Defines m.schema) f.ts f.default := by
  have := ((C53_accepted_valid lib m h).types td htd).struct hs f hf
  exact ⟨this.defaultOptional hd, this.defaultConforms hd⟩

/-- C22 is false of nested struct types: the field `y` of
`type S Struct { x Struct { y String (required, default=true) } }` is required, has a default,
and the default is no string. -/
theorem C22_refuted : ∃ m, Accepted noLib m ∧ ∃ td ∈ m.schema.types, ∃ f ∈ td.ts.fields, ∃ g ∈ f.ts.fields,
    g.required = true ∧ g.default = .bool true ∧ g.ts.type = "String" := by
  obtain ⟨m, h1, h2⟩ := accepted_of noLib [sym "type", sym "S", sym "Struct", punct .openBrace, nl, sym "x", sym "Struct",
    punct .openBrace, nl, sym "y", sym "String", punct .openParen, sym "required", punct .comma, sym "default", punct .equals,
    sym "true", punct .closeParen, nl, punct .closeBrace, nl, punct .closeBrace, nl]
    (fun m => m.schema.types.any (fun td => td.ts.fields.any (fun f => f.ts.fields.any (fun g =>
      g.required && (match g.default with | .bool b => b | _ => false) && g.ts.type == "String"))))
    (by decide +kernel) (by decide +kernel)
  simp only [Bool.and_eq_true, List.any_eq_true, beq_iff_eq] at h2
  obtain ⟨td, h3, f, h4, g, h5, ⟨h6, h7⟩, h8⟩ := h2
  refine ⟨m, h1, td, h3, f, h4, g, h5, h6, ?_, h8⟩
  split at h7
  · next h9 => rw [h9, h7]
  · simp at h7

/-! ### C23 -/

/-- C23 (part): no String type and no field of a struct type of an accepted source has both a
pattern and values.  Missing: fields of nested struct types. -/
theorem C23_pattern_or_values_partial (lib : PLib) (m : Model) (h : Accepted lib m) (td : TypeDef) (htd : td ∈ m.schema.types) :
    (td.ts.type = "String" → ¬ (td.ts.pattern ≠ "" ∧ td.ts.values ≠ none)) ∧
    (td.ts.type = "Struct" → ∀ f ∈ td.ts.fields, ¬ (f.ts.pattern ≠ "" ∧ f.ts.values ≠ none)) := by
  have hv := (C53_accepted_valid lib m h).types td htd
  constructor
  · rintro hs ⟨h1, h2⟩
    rcases hv.patternOrValues hs with h3 | h3
    · exact h2 h3
    · exact h1 h3
  · rintro hs f hf ⟨h1, h2⟩
    rcases (hv.struct hs f hf).patternOrValues with h3 | h3
    · exact h2 h3
    · exact h1 h3

/-- C23 is false of nested struct types. -/
theorem C23_refuted : ∃ m, Accepted noLib m ∧ ∃ td ∈ m.schema.types, ∃ f ∈ td.ts.fields, ∃ g ∈ f.ts.fields,
    g.ts.type = "String" ∧ g.ts.pattern = "p" ∧ g.ts.values = some ["v"] := by
  obtain ⟨m, h1, h2⟩ := accepted_of noLib [sym "type", sym "S", sym "Struct", punct .openBrace, nl, sym "x", sym "Struct",
    punct .openBrace, nl, sym "y", sym "String", punct .openParen, sym "pattern", punct .equals, str "p", punct .comma, sym "values",
    punct .equals, punct .openBracket, str "v", punct .closeBracket, punct .closeParen, nl, punct .closeBrace, nl,
    punct .closeBrace, nl]
    (fun m => m.schema.types.any (fun td => td.ts.fields.any (fun f => f.ts.fields.any (fun g =>
      g.ts.type == "String" && g.ts.pattern == "p" && g.ts.values == some ["v"]))))
    (by decide +kernel) (by decide +kernel)
  simp only [Bool.and_eq_true, List.any_eq_true, beq_iff_eq] at h2
  obtain ⟨td, h3, f, h4, g, h5, ⟨h6, h7⟩, h8⟩ := h2
  exact ⟨m, h1, td, h3, f, h4, g, h5, h6, h7, h8⟩

/-! ### C26 -/

/-- C26: every action of an accepted source has at most one body input, and has one only if
the method is POST, PUT or PATCH; its expected response has at most one body output, and none
for the statuses 204 and 304.  A body input is one that is neither in the path nor a query
item nor a header; a body output is one that is not a header. -/
theorem C26_body_rules (lib : PLib) (m : Model) (h : Accepted lib m) (a : HttpDef) (ha : a ∈ m.schema.http) :
    (a.inputs.filter (fun p => decide (p.path = false ∧ p.query = "" ∧ p.header = ""))).length ≤ 1 ∧
    (∀ p ∈ a.inputs, p.path = false ∧ p.query = "" ∧ p.header = "" → a.method = "POST" ∨ a.method = "PUT" ∨ a.method = "PATCH") ∧
    ∀ e, a.expected = some e → (e.outputs.filter (fun p => decide (p.header = ""))).length ≤ 1 ∧
      (e.status = 204 ∨ e.status = 304 → ∀ p ∈ e.outputs, p.header ≠ "") := by
  have hv := (C53_accepted_valid lib m h).http a ha
  refine ⟨hv.oneBody, ?_, fun e he => ⟨hv.oneOutputBody e he, ?_⟩⟩
  · intro p hp hb
    have := hv.bodyAllowed p hp (by simpa [BodyInput] using hb)
    simpa using this
  · intro hs p hp hb
    have := hv.outputBodyAllowed e he p hp (by simpa [BodyOutput] using hb)
    rcases hs with hs | hs
    · exact this.1 hs
    · exact this.2 hs

/-! ### C34 -/

/-- C34 (part): an example of an accepted source that targets a type conforms to it. -/
theorem C34_type_examples_partial (lib : PLib) (m : Model) (h : Accepted lib m) (ex : ExampleDef) (hex : ex ∈ m.schema.examples)
    (ts : TypeSpec) (ht : Defines m.schema ex.target ts) : Conforms lib.toLib (Defines m.schema) ts ex.example := by
  have hmod : newModel m.schema = .ok m := by
    obtain ⟨files, n, name, ns, toks, _, _, h3⟩ := h
    obtain ⟨_, _, h6⟩ := parseNoValidate_ok (parses_iff.1 h3).1
    exact h6
  cases (C53_accepted_valid lib m h).examples ex hex with
  | type h1 h2 =>
    cases h1 with
    | type h3 => rw [defines_unique hmod ht h3]; exact h2
    | field hk => exact absurd ⟨_, ht⟩ hk
  | request h1 => exact absurd (.type ht) (h1 ts)
  | response h1 => exact absurd (.type ht) (h1 ts)

/-- C34 (part): an example of an accepted source whose target is the request or the response
of an HTTP action is an object holding every required parameter, and those of its members
that name a parameter conform to the type that the parameter names.  Missing: members that
name no parameter are not rejected, and constraints written at the parameter itself are not
looked at, see the refutations. -/
theorem C34_http_examples_partial (lib : PLib) (m : Model) (h : Accepted lib m) (ex : ExampleDef) (hex : ex ∈ m.schema.examples)
    (hn : ∀ ts, ¬ Target m.schema ex.target ts) :
    ∃ a ∈ m.schema.http, ∃ (base : String) (ps : List HttpParamSpec) (kvs : List (String × Value)), a.name = uncapitalize base ∧
      (ex.target = base ++ "Request" ∧ ps = a.inputs ∨
       ex.target = base ++ "Response" ∧ ∃ e, a.expected = some e ∧ ps = e.outputs) ∧
      ex.example = .obj kvs ∧ (∀ p ∈ ps, p.field.required = true → ∃ x, (p.field.name, x) ∈ kvs) ∧
      ∀ k x, (k, x) ∈ kvs → ∀ p ∈ ps, p.field.name = k →
        ∃ ts, Defines m.schema p.field.ts.type ts ∧ Conforms lib.toLib (Defines m.schema) ts x := by
  cases (C53_accepted_valid lib m h).examples ex hex with
  | type h1 => exact absurd h1 (hn _)
  | request h1 h2 h3 h4 h5 =>
    obtain ⟨kvs, h6, h7, h8⟩ := h5
    exact ⟨_, h3, _, _, kvs, h4, .inl ⟨h2, rfl⟩, h6, h8, h7⟩
  | response h1 h2 h3 h4 h5 h6 =>
    obtain ⟨kvs, h6, h7, h8⟩ := h6
    exact ⟨_, h3, _, _, kvs, h4, .inr ⟨h2, _, h5, rfl⟩, h6, h8, h7⟩

/-- C34 is false: an example of a request may hold a member, here `zzz`, that is no input of
the action, here `http GET "/x/{id}" (operation=getX) { id String }`. -/
theorem C34_refuted_unknown_member : ∃ m, Accepted noLib m ∧ ∃ ex ∈ m.schema.examples, ∃ kvs x,
    ex.target = "GetXRequest" ∧ ex.example = .obj kvs ∧ ("zzz", x) ∈ kvs ∧
    m.schema.http.map (fun a => (a.name, a.inputs.map (fun p => p.field.name))) = [("getX", ["id"])] := by
  obtain ⟨m, h1, h2⟩ := accepted_of noLib [sym "http", sym "GET", str "/x/{id}", punct .openParen, sym "operation", punct .equals,
    sym "getX", punct .closeParen, punct .openBrace, nl, sym "id", sym "String", nl, punct .closeBrace, nl,
    sym "example", sym "GetXRequest", punct .openBrace, str "id", punct .colon, str "a", punct .comma, str "zzz", punct .colon, sym "true",
    punct .closeBrace, nl]
    (fun m => m.schema.examples.any (fun ex => ex.target == "GetXRequest" &&
        (match ex.example with | .obj kvs => kvs.any (fun kv => kv.1 == "zzz") | _ => false)) &&
      m.schema.http.map (fun a => (a.name, a.inputs.map (fun p => p.field.name))) == [("getX", ["id"])])
    (by decide +kernel) (by decide +kernel)
  simp only [Bool.and_eq_true, List.any_eq_true, beq_iff_eq] at h2
  obtain ⟨⟨ex, h3, h4, h5⟩, h6⟩ := h2
  split at h5
  · next kvs h7 =>
    simp only [List.any_eq_true, beq_iff_eq] at h5
    obtain ⟨⟨k, x⟩, h8, h9⟩ := h5
    simp only at h9
    exact ⟨m, h1, ex, h3, kvs, x, h4, h7, h9 ▸ h8, h6⟩
  · simp at h5

/-- C34 is false: what an HTTP parameter says beyond the name of its type is not applied to
examples: the input `s` is a `Struct { y Int32 (required) }`, its example is `{}`. -/
theorem C34_refuted_inline_struct : ∃ m, Accepted noLib m ∧ ∃ ex ∈ m.schema.examples, ∃ kvs,
    ex.target = "PutXRequest" ∧ ex.example = .obj kvs ∧ ("s", Value.obj []) ∈ kvs ∧
    m.schema.http.map (fun a => (a.name, a.inputs.map (fun p => (p.field.name, p.field.ts.type,
        p.field.ts.fields.map (fun f => (f.name, f.ts.type, f.required)))))) =
      [("putX", [("s", "Struct", [("y", "Int32", true)])])] := by
  obtain ⟨m, h1, h2⟩ := accepted_of noLib [sym "http", sym "PUT", str "/x", punct .openParen, sym "operation", punct .equals,
    sym "putX", punct .closeParen, punct .openBrace, nl, sym "s", sym "Struct", punct .openBrace, nl,
    sym "y", sym "Int32", punct .openParen, sym "required", punct .closeParen, nl, punct .closeBrace, nl,
    punct .closeBrace, nl,
    sym "example", sym "PutXRequest", punct .openBrace, str "s", punct .colon, punct .openBrace, punct .closeBrace,
    punct .closeBrace, nl]
    (fun m => m.schema.examples.any (fun ex => ex.target == "PutXRequest" &&
        (match ex.example with
          | .obj kvs => kvs.any (fun kv => kv.1 == "s" && (match kv.2 with | .obj [] => true | _ => false))
          | _ => false)) &&
      m.schema.http.map (fun a => (a.name, a.inputs.map (fun p => (p.field.name, p.field.ts.type,
          p.field.ts.fields.map (fun f => (f.name, f.ts.type, f.required)))))) ==
        [("putX", [("s", "Struct", [("y", "Int32", true)])])])
    (by decide +kernel) (by decide +kernel)
  simp only [Bool.and_eq_true, List.any_eq_true, beq_iff_eq] at h2
  obtain ⟨⟨ex, h3, h4, h5⟩, h6⟩ := h2
  split at h5
  · next kvs h7 =>
    simp only [List.any_eq_true, Bool.and_eq_true, beq_iff_eq] at h5
    obtain ⟨⟨k, x⟩, h8, h9, h10⟩ := h5
    simp only at h9 h10
    split at h10
    · next => subst h9; exact ⟨m, h1, ex, h3, kvs, h4, h7, h8, h6⟩
    · simp at h10
  · simp at h5

/-! ### C52 -/

/-- A schema passes: a model can be made of it (model.go:19), and its validation
(parser.go:2060) finds no error. -/
def Passes (lib : Lib) (s : Schema) : Prop := ∃ m n, newModel s = .ok m ∧ checkModel lib m n = rok

/-- C52: whether a schema passes does not depend on the order of its types, examples and HTTP
actions. -/
theorem C52_order_independent (lib : Lib) (s s' : Schema) (ht : s.types.Perm s'.types)
    (he : s.examples.Perm s'.examples) (hh : s.http.Perm s'.http) : Passes lib s ↔ Passes lib s' := by
  constructor
  · rintro ⟨m, n, h1, h2⟩
    obtain ⟨m', h3⟩ := newModel_perm h1 ht hh
    exact ⟨m', n, h3, (checkModel_perm h1 h3 ht he hh n).1 h2⟩
  · rintro ⟨m, n, h1, h2⟩
    obtain ⟨m', h3⟩ := newModel_perm h1 ht.symm hh.symm
    exact ⟨m', n, h3, (checkModel_perm h1 h3 ht.symm he.symm hh.symm n).1 h2⟩

/-- what passing means for a source: it is the same as being accepted -/
theorem C52_passes_iff (lib : PLib) (incl : String → IncRes) (init : Schema) (toks : List Token) (m : Model)
    (h : parseNoValidate lib incl init toks = some (.ok m)) :
    Parses lib incl init toks m ↔ Passes lib.toLib m.schema := by
  obtain ⟨_, _, h6⟩ := parseNoValidate_ok h
  rw [parses_iff]
  constructor
  · rintro ⟨_, n, h2⟩; exact ⟨m, n, h6, h2⟩
  · rintro ⟨m', n, h1, h2⟩
    have : m' = m := by rw [h6] at h1; injection h1 with h1; exact h1.symm
    exact ⟨h, n, this ▸ h2⟩

/-- a type used before its definition, and after it -/
example : Passes noLib.toLib
      { types := [{ name := "A", ts := { type := "Array", items := "B" } }, { name := "B", ts := { type := "String" } }] } ∧
    Passes noLib.toLib
      { types := [{ name := "B", ts := { type := "String" } }, { name := "A", ts := { type := "Array", items := "B" } }] } := by
  have h : Passes noLib.toLib
      { types := [{ name := "A", ts := { type := "Array", items := "B" } }, { name := "B", ts := { type := "String" } }] } :=
    ⟨_, 1, rfl, rfl⟩
  exact ⟨h, (C52_order_independent _ _ _ (by exact .swap _ _ _) (by exact .nil) (by exact .nil)).1 h⟩

end Sadl.Props
