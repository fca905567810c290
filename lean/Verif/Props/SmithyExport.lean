import Verif.Lemmas.SmithyFailure
import Verif.Lemmas.SmithyRefs
import Verif.Props.Accepted
/-
C58: when the Smithy export succeeds.  C59: whether it succeeds for every accepted source.
C60: whether the references of the exported AST lead to shapes.
-/
namespace Sadl.Props
open Sadl Sadl.Spec Sadl.Smithy

/-- An enumeration of the entries of a Go map. -/
abbrev MapOrder := GoMap (GoMap Value) → GoMap (GoMap Value)

/-- The suffixes chosen by the option `use-input-output`. -/
def chosen (useInputOutput : Bool) : Suffixes :=
  if useInputOutput then { input := "Input", output := "Output" } else { input := "Request", output := "Response" }

theorem export_is_from (order : MapOrder) (io : Bool) (confNs : String) (m : Model) :
    ∃ ns, ns ≠ "" ∧ exportSmithy order io confNs m = fromSadl order (chosen io) m ns := by
  unfold exportSmithy
  refine ⟨_, ?_, rfl⟩
  split
  · assumption
  · split
    · assumption
    · decide

/-! ### C58 -/

/-- C58: the export of a model to Smithy returns an AST if and only if every type is based on a type with a
Smithy counterpart, every action has an expected response, the annotations `x_paginated` are well
formed, every exception is a shape, and the examples used are objects. -/
theorem C58_succeeds_iff (order : MapOrder) (io : Bool) (confNs : String) (m : Model) :
    (∃ ast, exportSmithy order io confNs m = .ok ast) ↔ SmithyReady (chosen io) m.schema := by
  obtain ⟨ns, _, h⟩ := export_is_from order io confNs m
  rw [h]
  exact fromSadl_ok order (chosen io) m ns

/-- C58: the only error is that the type of an exception is not a type of the schema; the message names it. -/
theorem C58_errors (order : MapOrder) (io : Bool) (confNs : String) (m : Model) (e : String)
    (h : exportSmithy order io confNs m = .err e) :
    ∃ a ∈ m.schema.http, ∃ x ∈ a.exceptions, (∀ td ∈ m.schema.types, td.name ≠ x.type) ∧
      e = "Cannot find shape for error declaration type " ++ x.type := by
  obtain ⟨ns, _, h'⟩ := export_is_from order io confNs m
  rw [h'] at h
  obtain ⟨a, h1, x, h2, h3, h4⟩ := fromSadl_err h
  exact ⟨a, h1, x, h2, fun td h5 h6 => h3 ⟨td, h5, h6⟩, h4⟩

/-- C58: the export panics only on a type based on another type, on an action without expected response, on an
annotation `x_paginated` with an item without `=`, or on an example that is not an object. -/
theorem C58_panics (order : MapOrder) (io : Bool) (confNs : String) (m : Model) (e : String)
    (h : exportSmithy order io confNs m = .panic e) :
    (∃ td ∈ m.schema.types, td.ts.type ∉ SmithyBases) ∨ (∃ a ∈ m.schema.http, a.expected = none) ∨
    (∃ a ∈ m.schema.http, ∃ v, mget a.annotations "x_paginated" = some v ∧ ∃ item ∈ splitAll ',' v.toList, '=' ∉ item) ∨
    ∃ ex ∈ m.schema.examples, ¬ IsObject ex.example := by
  obtain ⟨ns, _, h'⟩ := export_is_from order io confNs m
  rw [h'] at h
  exact fromSadl_panic h

/-- C58: whether the export succeeds does not depend on the namespace or on the order in which Go enumerates
its maps. -/
theorem C58_independent (o1 o2 : MapOrder) (io : Bool) (ns1 ns2 : String) (m : Model) :
    (∃ ast, exportSmithy o1 io ns1 m = .ok ast) ↔ ∃ ast, exportSmithy o2 io ns2 m = .ok ast := by
  rw [C58_succeeds_iff, C58_succeeds_iff]

/-- A schema with types of several kinds, an action with an exception, an operation and examples. -/
def animals : Schema :=
  { name := "zoo", types :=
      [{ name := "Species", comment := "A species.", ts := { type := "Enum", elements := [{ symbol := "CAT" }, { symbol := "DOG" }] } },
       { name := "Name", ts := { type := "String", pattern := "[a-z]*" } },
       { name := "Names", ts := { type := "Array", items := "Name" } },
       { name := "Ages", ts := { type := "Map", keys := "Name", items := "Int32" } },
       { name := "Animal", ts := { type := "Struct", fields :=
          [{ name := "name", required := true, ts := { type := "Name" } }, { name := "species", ts := { type := "Species" } },
           { name := "weight", ts := { type := "Float64" } }] } },
       { name := "Found", ts := { type := "Union", variants := [{ name := "Animal", ts := { type := "Animal" } }, { name := "Names", ts := { type := "Names" } }] } },
       { name := "NotFound", ts := { type := "Struct", fields := [{ name := "message", ts := { type := "String" } }] } }],
    http := [{ method := "GET", path := "/animals/{name}?limit={limit}", name := "getAnimal",
               annotations := [("x_paginated", "items=animals,pageSize=limit")],
               inputs := [{ path := true, field := { name := "name", ts := { type := "Name" } } },
                          { query := "limit", field := { name := "limit", ts := { type := "Int32" } } }],
               expected := some { status := 200, outputs := [{ field := { name := "body", ts := { type := "Animal" } } }] },
               exceptions := [{ type := "NotFound", status := 404 }] }],
    operations := [{ name := "feed", inputs := [{ name := "animal", ts := { type := "Animal" } }], outputs := [] }],
    examples := [{ target := "GetAnimalRequest", name := "one", «example» := .obj [("name", .str "tom")] },
                 { target := "GetAnimalResponse", name := "one", «example» := .obj [] }] }

/-- The example is ready for the export. -/
theorem animals_ready (io : Bool) : SmithyReady (chosen io) animals where
  types := by decide
  expected := by intro h hh; simp only [animals, List.mem_singleton] at hh; subst hh; simp
  paginated := by
    intro h hh v hv
    simp only [animals, List.mem_singleton] at hh
    subst hh
    have : mget [("x_paginated", "items=animals,pageSize=limit")] "x_paginated" = some "items=animals,pageSize=limit" := rfl
    rw [this] at hv
    cases hv
    decide +kernel
  exceptions := by
    intro pre h post e x hx
    have : h ∈ animals.http := by rw [e]; simp
    simp only [animals, List.mem_singleton] at this
    subst this
    simp only [List.mem_singleton] at hx
    subst hx
    exact .inl ⟨animals.types[6], by simp [animals], rfl⟩
  requests := by
    intro h _ ex hex _
    simp only [animals, List.mem_cons, List.not_mem_nil, or_false] at hex
    rcases hex with rfl | rfl <;> exact ⟨_, rfl⟩
  responses := by
    intro h _ ex hex _ _
    simp only [animals, List.mem_cons, List.not_mem_nil, or_false] at hex
    rcases hex with rfl | rfl <;> exact ⟨_, rfl⟩

theorem animals_model : ∃ m, newModel m.schema = .ok m ∧ m.schema = animals := by
  have h : (match newModel animals with | .ok _ => true | _ => false) = true := by decide +kernel
  split at h
  · next m hm =>
    have hs : m.schema = animals := by obtain ⟨_, _, _, rfl⟩ := (newModel_ok_iff _ _).1 hm; rfl
    exact ⟨m, by rw [hs]; exact hm, hs⟩
  · simp at h

example : ∃ m ast, m.schema = animals ∧ exportSmithy id false "com.example" m = .ok ast := by
  obtain ⟨m, _, hs⟩ := animals_model
  obtain ⟨ast, h⟩ := (C58_succeeds_iff id false "com.example" m).2 (hs ▸ animals_ready false)
  exact ⟨m, ast, hs, h⟩

/-! ### C59 -/

/-- C59 (part): an accepted source can be exported if its types are based on types with a Smithy
counterpart, its actions have expected responses, its annotations `x_paginated` are well formed, its exceptions are not
built-in types and its examples are objects.  The full property, without these conditions, is false: see
the refutations below. -/
theorem C59_accepted_partial (lib : PLib) (m : Model) (hm : Accepted lib m) (order : MapOrder) (io : Bool) (confNs : String)
    (types : ∀ td ∈ m.schema.types, td.ts.type ∈ SmithyBases) (expected : ∀ a ∈ m.schema.http, a.expected ≠ none)
    (paginated : ∀ a ∈ m.schema.http, ∀ v, mget a.annotations "x_paginated" = some v → ∀ item ∈ splitAll ',' v.toList, '=' ∈ item)
    (exceptions : ∀ a ∈ m.schema.http, ∀ x ∈ a.exceptions, x.type ∉ BaseTypes)
    (examples : ∀ ex ∈ m.schema.examples, IsObject ex.example) :
    ∃ ast, exportSmithy order io confNs m = .ok ast := by
  rw [C58_succeeds_iff]
  refine ⟨types, expected, paginated, ?_, fun _ _ ex he _ => examples ex he, fun _ _ ex he _ _ => examples ex he⟩
  intro pre h post e x hx
  have hh : h ∈ m.schema.http := by rw [e]; simp
  left
  have hv := (C53_accepted_valid lib m hm).http h hh
  obtain ⟨ex, hex⟩ := Option.ne_none_iff_exists'.1 (expected h hh)
  obtain ⟨ts, ⟨td, h1, h2, _⟩ | ⟨h1, _⟩⟩ := hv.exceptionTypes ex hex x hx
  · exact ⟨td, h1, h2⟩
  · exact absurd h1 (exceptions h hh x hx)

/-- The export of the model panics. -/
def smithyPanicsB (m : Model) : Bool :=
  match exportSmithy id false "" m with
  | .panic _ => true
  | _ => false

/-- The export of the model returns an error. -/
def smithyErrsB (m : Model) : Bool :=
  match exportSmithy id false "" m with
  | .err _ => true
  | _ => false

theorem smithyPanics_of {toks : List Token} (h1 : toks.all (fun t => decide (t.type = .symbol → t.text ≠ "")) = true)
    (h : accepts noLib toks smithyPanicsB = true) : ∃ m e, Accepted noLib m ∧ exportSmithy id false "" m = .panic e := by
  obtain ⟨m, hm, h⟩ := accepted_of noLib toks _ h1 h
  unfold smithyPanicsB at h
  split at h
  · next e he => exact ⟨m, e, hm, he⟩
  · simp at h

/-- C59 is false: the export of a type based on `Bool`, `Bytes`, `Timestamp`, `UnitValue` or `Any` panics. -/
theorem C59_refuted_types (t : List Token)
    (ht : t ∈ [[sym "Bool"], [sym "Bytes"], [sym "Timestamp"],
      [sym "UnitValue", punct .openAngle, sym "Decimal", punct .comma, sym "String", punct .closeAngle], [sym "Any"]]) :
    ∃ m e, Parses noLib (parseFileN noLib (fun _ => none) 0) (initialSchema "" "") ([sym "type", sym "Foo"] ++ t ++ [nl]) m ∧
      exportSmithy id false "" m = .panic e := by
  have key : ∀ toks, accepts noLib toks smithyPanicsB = true →
      ∃ m e, Parses noLib (parseFileN noLib (fun _ => none) 0) (initialSchema "" "") toks m ∧ exportSmithy id false "" m = .panic e := by
    intro toks h
    unfold accepts at h
    split at h
    · next m hm =>
      unfold smithyPanicsB at h
      split at h
      · next e he => exact ⟨m, e, ⟨5, hm⟩, he⟩
      · simp at h
    · simp at h
  simp only [List.mem_cons, List.not_mem_nil, or_false] at ht
  rcases ht with rfl | rfl | rfl | rfl | rfl
  all_goals exact key _ (by decide +kernel)

/-- C59 is false: the export of an action without expected response panics. -/
theorem C59_refuted_expect : ∃ m e, Accepted noLib m ∧ exportSmithy id false "" m = .panic e :=
  smithyPanics_of (toks :=
    [sym "http", sym "GET", str "/foo", punct .openParen, sym "operation", punct .equals, sym "getFoo", punct .closeParen, punct .openBrace, nl,
     punct .closeBrace, nl]) (by decide +kernel) (by decide +kernel)

/-- C59 is false: the export of an action whose exception is a built-in type returns an error. -/
theorem C59_refuted_exception : ∃ m e, Accepted noLib m ∧ exportSmithy id false "" m = .err e := by
  obtain ⟨m, hm, h⟩ := accepted_of noLib
    [sym "http", sym "GET", str "/foo", punct .openParen, sym "operation", punct .equals, sym "getFoo", punct .closeParen, punct .openBrace, nl,
     sym "expect", num "200", nl, sym "except", num "404", sym "String", nl, punct .closeBrace, nl] smithyErrsB (by decide +kernel) (by decide +kernel)
  unfold smithyErrsB at h
  split at h
  · next e he => exact ⟨m, e, hm, he⟩
  · simp at h

/-! ### C60 -/

/-- C60 (part): if the types referred to are built-in types other than collections, enumerations, unions, unit
values and `Any`, or types of the schema, then every reference of the exported AST leads to a
shape of the AST or of Smithy.  The full property, for every schema that can be exported, is false: see
`C60_refuted`. -/
theorem C60_refs_partial (order : MapOrder) (io : Bool) (confNs : String) (m : Model) (hs : SmithyRefsOk m.schema)
    (ast : Ast) (h : exportSmithy order io confNs m = .ok ast) : ShapesResolve ast := by
  obtain ⟨ns, _, h'⟩ := export_is_from order io confNs m
  rw [h'] at h
  exact fromSadl_refs h hs

/-- C60: every type, action and operation of the schema has a shape, and so has the service if there are actions
or operations. -/
theorem C60_shapes (order : MapOrder) (io : Bool) (confNs : String) (m : Model) (ast : Ast)
    (h : exportSmithy order io confNs m = .ok ast) :
    ∃ ns, ∀ n ∈ ShapeNames (chosen io) m.schema, ∃ sh, (ns ++ "#" ++ n, sh) ∈ ast.shapes := by
  obtain ⟨ns, _, h'⟩ := export_is_from order io confNs m
  rw [h'] at h
  refine ⟨ns, fun n hn => ?_⟩
  obtain ⟨⟨k, sh⟩, h1, h2⟩ := List.mem_map.1 (fromSadl_has h hn)
  exact ⟨sh, by rw [← show k = ns ++ "#" ++ n from h2]; exact h1⟩

/-- The example meets the conditions of `C60_refs_partial`. -/
theorem animals_refs : SmithyRefsOk animals := by
  have named : ∀ n ∈ ["Species", "Name", "Names", "Ages", "Animal", "Found", "NotFound"], Named animals n := by
    intro n hn
    have : n ∈ animals.types.map (·.name) := hn
    obtain ⟨td, h1, h2⟩ := List.mem_map.1 this
    exact ⟨td, h1, h2⟩
  constructor
  · intro td htd hb f hf
    simp only [animals, List.mem_cons, List.not_mem_nil, or_false] at htd
    rcases htd with rfl | rfl | rfl | rfl | rfl | rfl | rfl <;> simp_all only [reduceCtorEq, String.reduceEq, List.mem_cons, List.not_mem_nil, or_false]
    · rcases hf with rfl | rfl | rfl
      · exact .inr (named _ (by decide))
      · exact .inr (named _ (by decide))
      · exact .inl (by decide)
    · subst hf; exact .inl (by decide)
  · intro td htd hb
    simp only [animals, List.mem_cons, List.not_mem_nil, or_false] at htd
    rcases htd with rfl | rfl | rfl | rfl | rfl | rfl | rfl <;> simp_all only [reduceCtorEq, String.reduceEq, List.mem_cons, List.not_mem_nil, or_false]
    exact .inr (named _ (by decide))
  · intro td htd hb
    simp only [animals, List.mem_cons, List.not_mem_nil, or_false] at htd
    rcases htd with rfl | rfl | rfl | rfl | rfl | rfl | rfl <;> simp_all only [reduceCtorEq, String.reduceEq, List.mem_cons, List.not_mem_nil, or_false]
    exact ⟨.inr (named _ (by decide)), .inl (by decide)⟩
  · intro td htd hb v hv
    simp only [animals, List.mem_cons, List.not_mem_nil, or_false] at htd
    rcases htd with rfl | rfl | rfl | rfl | rfl | rfl | rfl <;> simp_all only [reduceCtorEq, String.reduceEq, List.mem_cons, List.not_mem_nil, or_false]
    rcases hv with rfl | rfl <;> exact named _ (by decide)
  · decide
  · intro h hh p hp
    simp only [animals, List.mem_singleton] at hh
    subst hh
    simp only [List.mem_cons, List.not_mem_nil, or_false] at hp
    rcases hp with rfl | rfl
    · exact .inr (named _ (by decide))
    · exact .inl (by decide)
  · intro h hh p hp
    simp only [animals, List.mem_singleton] at hh
    subst hh
    simp only [ActionOutputs, List.mem_cons, List.not_mem_nil, or_false] at hp
    subst hp
    exact .inr (named _ (by decide))
  · intro od ho p hp
    simp only [animals, List.mem_singleton] at ho
    subst ho
    simp only [List.mem_cons, List.not_mem_nil, or_false] at hp
    subst hp
    exact .inr (named _ (by decide))
  · intro od ho p hp
    simp only [animals, List.mem_singleton] at ho
    subst ho
    simp at hp

/-- Some member of a shape of the AST has a target that is no shape. -/
def astDanglingB (ast : Ast) : Bool :=
  ast.shapes.any fun e => e.2.members.any fun f =>
    !PreludeShapes.contains f.2.target && ast.shapes.all fun g => g.1 != f.2.target

theorem astDangling {ast : Ast} (h : astDanglingB ast = true) : ¬ ShapesResolve ast := by
  intro hr
  unfold astDanglingB at h
  obtain ⟨⟨k, sh⟩, h1, h⟩ := List.any_eq_true.1 h
  obtain ⟨⟨f, mem⟩, h2, h⟩ := List.any_eq_true.1 h
  simp only [Bool.and_eq_true, Bool.not_eq_true', List.all_eq_true, bne_iff_ne] at h
  obtain ⟨h3, h4⟩ := h
  rcases hr k sh mem.target h1 (.members h2) with h5 | ⟨sh', h5⟩
  · rw [List.contains_iff_mem.2 h5] at h3
    cases h3
  · exact h4 _ h5 rfl

/-- Looks at the AST exported from a model. -/
def astB (p : Ast → Bool) (m : Model) : Bool :=
  match exportSmithy id false "" m with
  | .ok ast => p ast
  | _ => false

/-- C60 is false: for fields whose type is an array, a map, an enumeration, `Any` or a unit value. -/
theorem C60_refuted (t : List Token)
    (ht : t ∈ [[sym "Array", punct .openAngle, sym "String", punct .closeAngle],
      [sym "Map", punct .openAngle, sym "String", punct .comma, sym "Int32", punct .closeAngle],
      [sym "Enum", punct .openBrace, nl, sym "RED", nl, punct .closeBrace], [sym "Any"],
      [sym "UnitValue", punct .openAngle, sym "Decimal", punct .comma, sym "String", punct .closeAngle]]) :
    ∃ m ast, Parses noLib (parseFileN noLib (fun _ => none) 0) (initialSchema "" "")
        ([sym "type", sym "Foo", sym "Struct", punct .openBrace, nl, sym "a"] ++ t ++ [nl, punct .closeBrace, nl]) m ∧
      exportSmithy id false "" m = .ok ast ∧ ¬ ShapesResolve ast := by
  have key : ∀ toks, accepts noLib toks (astB astDanglingB) = true →
      ∃ m ast, Parses noLib (parseFileN noLib (fun _ => none) 0) (initialSchema "" "") toks m ∧ exportSmithy id false "" m = .ok ast ∧
        ¬ ShapesResolve ast := by
    intro toks h
    unfold accepts at h
    split at h
    · next m hm =>
      unfold astB at h
      split at h
      · next d hd => exact ⟨m, d, ⟨5, hm⟩, hd, astDangling h⟩
      · simp at h
    · simp at h
  simp only [List.mem_cons, List.not_mem_nil, or_false] at ht
  rcases ht with rfl | rfl | rfl | rfl | rfl
  all_goals exact key _ (by decide +kernel)

/-- C60 is false of unions of built-in types: `type Foo Union<String,Int32>`. -/
theorem C60_refuted_union : ∃ m ast, Accepted noLib m ∧ exportSmithy id false "" m = .ok ast ∧ ¬ ShapesResolve ast := by
  obtain ⟨m, hm, h⟩ := accepted_of noLib
    [sym "type", sym "Foo", sym "Union", punct .openAngle, sym "String", punct .comma, sym "Int32", punct .closeAngle, nl]
    (astB astDanglingB) (by decide +kernel) (by decide +kernel)
  unfold astB at h
  split at h
  · next d hd => exact ⟨m, d, hm, hd, astDangling h⟩
  · simp at h

end Sadl.Props
