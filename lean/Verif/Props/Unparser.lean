import Verif.Lemmas.UnparseBlock
import Verif.Props.Accepted
/-
C33: decompiled source parses back to the same model.
-/
namespace Sadl.Props
open Sadl Sadl.Spec

/-- C33 (part): the source printed from a printable model is read back as the same model.
Types, operations, HTTP actions, examples, comment, base path, version and annotations are
the same; so are the name and the namespace, unless they are empty, in which case the parser
takes the ones it is given.  Missing: the models that `Printable` excludes, for most of which
the property is false, see below. -/
theorem C33_roundtrip_partial (lib : PLib) (pl : PrintLib) (incl : String → IncRes) (n ns : String) (m : Model)
    (hm : newModel m.schema = .ok m) (h : Printable lib pl m.schema) :
    ∃ m', parseNoValidate lib incl (initialSchema n ns) (decompile pl m.schema) = some (.ok m') ∧
      m'.schema = { m.schema with
        sadl := "development version"
        name := if m.schema.name = "" then n else m.schema.name
        «namespace» := if m.schema.namespace = "" then ns else m.schema.namespace } := by
  have hA : At { toks := decompile pl m.schema } (decompile pl m.schema) := ⟨rfl, nb_decompile h⟩
  obtain ⟨r, s', h1, rfl⟩ := top_all (incl := incl) h n ns hA
  have e : parseNoValidate lib incl (initialSchema n ns) (decompile pl m.schema) = some (newModel (readBack n ns m.schema)) := by
    unfold parseNoValidate parseSchema
    rw [h1]
  rw [e]
  obtain ⟨h2, h3, h4, -⟩ := (newModel_ok_iff _ _).1 hm
  exact ⟨_, congrArg some ((newModel_ok_iff (readBack n ns m.schema) _).2 ⟨h2, h3, h4, rfl⟩), rfl⟩

/-! ### A printable model -/

instance (s : String) : Decidable (IsName s) := inferInstanceAs (Decidable (_ = true))
instance (s : String) : Decidable (IsPlain s) := inferInstanceAs (Decidable (∀ c ∈ s.toList, _))
instance (s : String) : Decidable (IsWords s) := inferInstanceAs (Decidable (_ ∨ _))
instance (s : String) : Decidable (IsLine s) := inferInstanceAs (Decidable (_ ∧ _))
instance (s : String) : Decidable (IsDotted s) := inferInstanceAs (Decidable (∀ p ∈ splitAll '.' s.toList, _))

/-- A library that knows the number 3. -/
def numLib : PLib := { noLib with parseDecimal := fun t => if t = "3" then some (.fin 3 0) else none }
def numPrint : PrintLib :=
  { decText := fun d => if d = .fin 3 0 then "3" else "?", jsonText := id, jsonOther := fun _ => [], lex := fun _ => [], wide := fun _ _ _ _ => false }

/-- A model with a comment, annotations, several types, an operation, an action, an example. -/
def sampleSchema : Schema :=
  { name := "shop", «namespace» := "com.example", version := "1.0", comment := "A small shop.", base := "/api", annotations := [("x_owner", "me")],
    types :=
      [{ name := "Code", comment := "A code.", ts := { type := "String", pattern := "[a-z]*", minSize := some 1, maxSize := some 12, values := some ["a", "b"] } },
       { name := "Count", ts := { type := "Int32", max := some (.fin 3 0) } },
       { name := "Codes", ts := { type := "Array", items := "Code", maxSize := some 5 } },
       { name := "Color", ts := { type := "Enum", elements := [{ symbol := "RED", comment := "like fire" }, { symbol := "BLUE", annotations := [("x_tone", "cold")] }] } },
       { name := "Item",
         ts := { type := "Struct",
                 fields := [{ name := "code", required := true, comment := "the key", ts := { type := "Code" } },
                            { name := "counts", ts := { type := "Map", keys := "Code", items := "Count" } },
                            { name := "extra", ts := { type := "Struct", fields := [{ name := "x", ts := { type := "Count" } }] } }] } },
       { name := "Either", ts := { type := "Union", variants := [{ name := "item", ts := { type := "Item" } }, { name := "code", ts := { type := "Code" } }] } }],
    operations := [{ name := "rename", inputs := [{ name := "item", ts := { type := "Item" } }], outputs := [{ name := "code", ts := { type := "Code" } }], exceptions := ["Item"] }],
    http :=
      [{ method := "GET", path := "/items/{code}?n={n}", name := "getItem", comment := "Get one.",
         inputs := [{ field := { name := "code", ts := { type := "Code" } }, path := true }, { field := { name := "n", default := .dec (.fin 3 0), ts := { type := "Count" } }, query := "n" }],
         expected := some { status := 200, outputs := [{ field := { name := "item", required := true, ts := { type := "Item" } } }] },
         exceptions := [{ type := "Codes", status := 404, comment := "not there" }] }],
    examples := [{ target := "Item.code", name := "one", «example» := .arr [.strPtr "abc", .dec (.fin 3 0), .obj [("k", .bool true)]] }] }

theorem sample_printable : Printable numLib numPrint sampleSchema := by
  have n3 : NumberOk numLib numPrint (.fin 3 0) := ⟨⟨3, 0, rfl⟩, by decide⟩
  have noAnnos : AnnosOk [] := ⟨by simp [GoMap.Distinct], by simp⟩
  have field : ∀ (n c : String) (r : Bool) (ts : TypeSpec), IsName n → IsLine c → byteLen c.toList ≤ 60 → (ts.type = "Enum" ∨ ts.type = "Struct" → r = false) →
      (ts.type = "Struct" → ts.fields = [] → c = "") → FieldDefOk { name := n, comment := c, required := r, ts := ts } :=
    fun n c r ts h1 h2 h3 h4 h5 => ⟨h1, h2, h3, noAnnos, rfl, fun h => ⟨h4 h, rfl⟩, h5⟩
  have item : SpecOk numLib numPrint (sampleSchema.types[4]).ts := by
    refine .struct ?_ ?_
    · intro f hf
      simp only [List.mem_cons, List.not_mem_nil, or_false] at hf
      rcases hf with rfl | rfl | rfl <;> exact field _ _ _ _ (by decide) (by decide) (by decide) (by decide) (by decide)
    · intro f hf
      simp only [List.mem_cons, List.not_mem_nil, or_false] at hf
      rcases hf with rfl | rfl | rfl
      · exact .named (by decide) (by decide)
      · exact .map (by decide) (by decide) (by simp [SizeOk]) (by simp [SizeOk])
      · refine .struct ?_ ?_
        · intro f hf
          simp only [List.mem_cons, List.not_mem_nil, or_false] at hf
          subst hf; exact field _ _ _ _ (by decide) (by decide) (by decide) (by decide) (by decide)
        · intro f hf
          simp only [List.mem_cons, List.not_mem_nil, or_false] at hf
          subst hf; exact .named (by decide) (by decide)
  refine ⟨by decide, by decide, by decide, by decide, by decide, by decide, by unfold GoMap.Distinct; decide, ?_, ?_, ?_, ?_⟩
  · intro td htd
    simp only [sampleSchema, List.mem_cons, List.not_mem_nil, or_false] at htd
    rcases htd with rfl | rfl | rfl | rfl | rfl | rfl
    · exact ⟨by decide, by decide, rfl, .inl ⟨.string (by decide) (by simp [SizeOk]) (by simp [SizeOk]) (by simp; decide), by decide, by decide⟩⟩
    · exact ⟨by decide, by decide, rfl, .inl ⟨.number (by decide) (by simp) (by simpa using n3), by decide, by decide⟩⟩
    · exact ⟨by decide, by decide, rfl, .inl ⟨.array (by decide) (by simp [SizeOk]) (by simp [SizeOk]), by decide, by decide⟩⟩
    · refine ⟨by decide, by decide, rfl, .inl ⟨.enum ?_, by decide, by decide⟩⟩
      intro el hel
      simp only [List.mem_cons, List.not_mem_nil, or_false] at hel
      rcases hel with rfl | rfl
      · exact ⟨by decide, by decide, noAnnos⟩
      · refine ⟨by decide, by decide, by simp [GoMap.Distinct], ?_⟩
        intro kv hkv
        simp only [List.mem_singleton] at hkv
        subst hkv
        exact ⟨by decide, by decide +kernel, by decide⟩
    · exact ⟨by decide, by decide, rfl, .inl ⟨item, by decide, by decide⟩⟩
    · refine ⟨by decide, by decide, rfl, .inr ⟨_, ?_, ?_, rfl⟩⟩
      · simp
      · intro v hv
        simp only [List.mem_cons, List.not_mem_nil, or_false] at hv
        rcases hv with rfl | rfl <;> exact ⟨_, _, by decide, by decide, .inl (by decide), rfl⟩
  · intro op hop
    simp only [sampleSchema, List.mem_singleton] at hop
    subst hop
    refine ⟨by decide, by decide, noAnnos, ?_, ?_, by simp; decide, by simp⟩
    · intro f hf
      simp only [List.mem_singleton] at hf
      exact ⟨_, _, _, by decide, by decide, hf⟩
    · intro f hf
      simp only [List.mem_singleton] at hf
      exact ⟨_, _, by decide, by decide, hf⟩
  · intro h hh
    simp only [sampleSchema, List.mem_singleton] at hh
    subst hh
    have s1 : parameterSource "/items/{code}?n={n}" "code" "" = .path := by decide +kernel
    have s2 : parameterSource "/items/{code}?n={n}" "n" "" = .query "n" := by decide +kernel
    have s3 : parameterSource "/items/{code}?n={n}" "item" "" = .body := by decide +kernel
    have nm : ∀ t, IsName t → t ∉ ["Enum", "Array", "List", "Map", "Struct", "Union", "UnitValue"] → ParamTypeOk { type := t } := fun t h1 h2 => .named h1 h2
    refine ⟨by decide, by decide, by decide, noAnnos, .inl ⟨by decide, rfl, by decide +kernel⟩, ?_, ?_, ?_, by simp⟩
    · intro p hp
      simp only [List.mem_cons, List.not_mem_nil, or_false] at hp
      rcases hp with rfl | rfl
      · exact ⟨by decide, by decide, by decide, rfl, nm _ (by decide) (by decide), .null, by decide, by simp only [s1, and_self], rfl⟩
      · exact ⟨by decide, by decide, by decide, rfl, nm _ (by decide) (by decide), .dec n3, by decide, by simp only [s2, and_self], rfl⟩
    · refine ⟨_, rfl, by unfold StatusOk; decide, by decide, rfl, ?_⟩
      intro p hp
      simp only [List.mem_singleton] at hp
      subst hp
      exact ⟨by decide, by decide, by decide, rfl, nm _ (by decide) (by decide), .null, by decide, by simp only [s3, and_self], rfl⟩
    · intro x hx
      simp only [List.mem_singleton] at hx
      subst hx
      exact ⟨by decide, by unfold StatusOk; decide, by decide, rfl⟩
  · intro ed hed
    simp only [sampleSchema, List.mem_singleton] at hed
    subst hed
    refine ⟨by decide, by decide, by decide, rfl, .arr ?_⟩
    intro x hx
    simp only [List.mem_cons, List.not_mem_nil, or_false] at hx
    rcases hx with rfl | rfl | rfl
    · exact .str rfl
    · exact .dec n3
    · exact .obj (by simp [GoMap.Distinct]) (by simp [numLib, numPrint, noLib]) (by simp; exact .bool)

/-- The sample is read back, so the hypotheses of C33 can be met. -/
example : ∃ m, newModel sampleSchema = .ok m ∧ m.schema = sampleSchema ∧
    ∃ m', parseNoValidate numLib (fun _ => none) (initialSchema "" "") (decompile numPrint sampleSchema) = some (.ok m') ∧
      m'.schema = { sampleSchema with sadl := "development version" } := by
  obtain ⟨m, hm, hs⟩ : ∃ m, newModel sampleSchema = .ok m ∧ m.schema = sampleSchema :=
    ⟨_, (newModel_ok_iff _ _).2 ⟨by decide, by decide, by decide, rfl⟩, rfl⟩
  refine ⟨m, hm, hs, ?_⟩
  have := C33_roundtrip_partial numLib numPrint (fun _ => none) "" "" m (by rw [hs]; exact hm) (by rw [hs]; exact sample_printable)
  rw [hs] at this
  exact this

/-! ### Models that are not read back -/

/-- The source printed from the model is parsed, and the result does not satisfy `p`. -/
def losesB (lib : PLib) (pl : PrintLib) (p : Schema → Bool) (m : Model) : Bool :=
  p m.schema &&
  match parseNoValidate lib (fun _ => none) (initialSchema "" "") (decompile pl m.schema) with
  | some (.ok m') => !p m'.schema
  | _ => false

/-- Some accepted source whose model satisfies `p` decompiles to a source that is parsed into a
model that does not. -/
def Loses (p : Schema → Bool) : Prop :=
  ∃ (lib : PLib) (pl : PrintLib) (m m' : Model), Accepted lib m ∧ p m.schema = true ∧
    parseNoValidate lib (fun _ => none) (initialSchema "" "") (decompile pl m.schema) = some (.ok m') ∧ p m'.schema = false

theorem loses_of (lib : PLib) (pl : PrintLib) (toks : List Token) (p : Schema → Bool)
    (h1 : toks.all (fun t => decide (t.type = .symbol → t.text ≠ "")) = true) (h : accepts lib toks (losesB lib pl p) = true) : Loses p := by
  obtain ⟨m, hm, h2⟩ := accepted_of lib toks _ h1 h
  unfold losesB at h2
  rw [Bool.and_eq_true] at h2
  obtain ⟨h2, h3⟩ := h2
  split at h3
  · next m' hm' => exact ⟨lib, pl, m, m', hm, h2, hm', by simpa using h3⟩
  · simp at h3

/-- Is the value given? -/
def given : Value → Bool
  | .null => false
  | _ => true

/-- C33 is false: the default value of a field is lost. -/
theorem C33_refuted_field_default : Loses (fun s => s.types.all (fun td => td.ts.fields.all (fun f => given f.default))) :=
  loses_of numLib numPrint
    [sym "type", sym "Foo", sym "Struct", punct .openBrace, nl, sym "a", sym "Int32", punct .openParen, sym "default", punct .equals, num "3",
     punct .closeParen, nl, punct .closeBrace, nl] _ (by decide +kernel) (by decide +kernel)

/-- C33 is false: the annotations of a type are lost. -/
theorem C33_refuted_type_annotations : Loses (fun s => s.types.all (fun td => !td.annotations.isEmpty)) :=
  loses_of numLib numPrint
    [sym "type", sym "Foo", sym "String", punct .openParen, sym "x_a", punct .equals, str "b", punct .closeParen, nl] _ (by decide +kernel) (by decide +kernel)

/-- C33 is false: the parameters of a UnitValue are lost. -/
theorem C33_refuted_unitValue : Loses (fun s => s.types.all (fun td => td.ts.unit == "Color" || td.name == "Color")) :=
  loses_of numLib numPrint
    [sym "type", sym "Color", sym "Enum", punct .openBrace, nl, sym "RED", nl, punct .closeBrace, nl,
     sym "type", sym "Foo", sym "UnitValue", punct .openAngle, sym "Decimal", punct .comma, sym "Color", punct .closeAngle, nl] _
    (by decide +kernel) (by decide +kernel)

/-- C33 is false: an HTTP action without `expect` gets one. -/
theorem C33_refuted_expect : Loses (fun s => s.http.all (fun h => h.expected.isNone)) :=
  loses_of numLib numPrint
    [sym "http", sym "GET", str "/foo", punct .openParen, sym "operation", punct .equals, sym "getFoo", punct .closeParen, punct .openBrace, nl,
     punct .closeBrace, nl] _ (by decide +kernel) (by decide +kernel)

/-- C33 is false: a backslash in a pattern is doubled. -/
theorem C33_refuted_pattern : Loses (fun s => s.types.all (fun td => td.ts.pattern == "\\d")) :=
  loses_of numLib numPrint
    [sym "type", sym "Foo", sym "String", punct .openParen, sym "pattern", punct .equals, str "\\d", punct .closeParen, nl] _
    (by decide +kernel) (by decide +kernel)

end Sadl.Props
